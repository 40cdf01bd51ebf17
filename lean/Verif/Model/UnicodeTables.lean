import Verif.Model.Tokeniser

/-
The Unicode property tables.  Generated from the text of the four files: the names, the
functions they belong to, and for each function the characters and ranges in its text, in
this order.  The texts themselves are made from these (`PropText.text`); that this gives the
texts of the files, character by character, was checked when the tables were generated.
-/
namespace Lexertl

/-- A text of unicode.hpp, blocks.hpp, scripts.hpp: characters and ranges in hexadecimal
(`up`: with capital letters and at least four digits, as in blocks.hpp), or references to
other properties. -/
inductive PropText
  | ranges (up : Bool) (rs : List (Nat × Nat))
  | props (names : List String)

namespace Unicode

/-- One hexadecimal digit. -/
def digit (up : Bool) (n : Nat) : Nat := if n < 10 then 48 + n else if up then 55 + n else 87 + n

/-- The hexadecimal digits of a number with at most `k` digits, before `acc`. -/
def digitsTo (up : Bool) : Nat → Nat → List Nat → List Nat
  | 0, _, acc => acc
  | k + 1, n, acc => if n < 16 then digit up n :: acc else digitsTo up k (n / 16) (digit up (n % 16) :: acc)

/-- The digits of a character. -/
def digits (up : Bool) (n : Nat) : List Nat :=
  let ds := digitsTo up 16 n []
  if up then List.replicate (4 - ds.length) 48 ++ ds else ds

/-- `\x1f` or `\x0-\x1f`. -/
def rangeText (up : Bool) (r : Nat × Nat) : List Nat :=
  if r.1 = r.2 then 92 :: 120 :: digits up r.1
  else 92 :: 120 :: digits up r.1 ++ 45 :: 92 :: 120 :: digits up r.2

/-- `\p{Cc}`. -/
def refText (name : String) : List Nat := 92 :: 112 :: 123 :: chars name ++ [125]

/-- What is between the brackets. -/
def bodyText : PropText → List Nat
  | .ranges up rs => rs.flatMap (rangeText up)
  | .props names => names.flatMap refText

/-- The text. -/
def text (p : PropText) : List Nat := 91 :: bodyText p ++ [93]

/-- parser/tokeniser/unicode.hpp:2-5. -/
def pC : PropText := .props ["Cc", "Cf", "Co", "Cs"]

/-- parser/tokeniser/unicode.hpp:7-10. -/
def pL : PropText := .props ["Ll", "Lm", "Lo", "Lt", "Lu"]

/-- parser/tokeniser/unicode.hpp:12-15. -/
def pLC : PropText := .props ["Ll", "Lt", "Lu"]

/-- parser/tokeniser/unicode.hpp:17-20. -/
def pM : PropText := .props ["Mc", "Me", "Mn"]

/-- parser/tokeniser/unicode.hpp:22-25. -/
def pN : PropText := .props ["Nd", "Nl", "No"]

/-- parser/tokeniser/unicode.hpp:27-30. -/
def pP : PropText := .props ["Pc", "Pd", "Pe", "Pf", "Pi", "Po", "Ps"]

/-- parser/tokeniser/unicode.hpp:32-35. -/
def pS : PropText := .props ["Sc", "Sk", "Sm", "So"]

/-- parser/tokeniser/unicode.hpp:37-40. -/
def pZ : PropText := .props ["Zl", "Zp", "Zs"]

/-- parser/tokeniser/unicode.hpp:42-45. -/
def pCc : PropText :=
  .ranges false [(0x0, 0x1f), (0x7f, 0x9f)]

/-- parser/tokeniser/unicode.hpp:47-53. -/
def pCf : PropText :=
  .ranges false [(0xad, 0xad), (0x600, 0x605), (0x61c, 0x61c), (0x6dd, 0x6dd), (0x70f, 0x70f), (0x890, 0x890),
    (0x891, 0x891), (0x8e2, 0x8e2), (0x180e, 0x180e), (0x200b, 0x200f), (0x202a, 0x202e), (0x2060, 0x2064),
    (0x2066, 0x206f), (0xfeff, 0xfeff), (0xfff9, 0xfffb), (0x110bd, 0x110bd), (0x110cd, 0x110cd), (0x13430, 0x1343f),
    (0x1bca0, 0x1bca3), (0x1d173, 0x1d17a), (0xe0001, 0xe0001), (0xe0020, 0xe007f)]

/-- parser/tokeniser/unicode.hpp:55-58. -/
def pCo : PropText :=
  .ranges false [(0xe000, 0xe000), (0xf8ff, 0xf8ff), (0xf0000, 0xf0000), (0xffffd, 0xffffd), (0x100000, 0x100000),
    (0x10fffd, 0x10fffd)]

/-- parser/tokeniser/unicode.hpp:60-63. -/
def pCs : PropText :=
  .ranges false [(0xd800, 0xd800), (0xdb7f, 0xdb7f), (0xdb80, 0xdb80), (0xdbff, 0xdbff), (0xdc00, 0xdc00),
    (0xdfff, 0xdfff)]

/-- parser/tokeniser/unicode.hpp:65-154. -/
def pLl : PropText :=
  .ranges false [(0x61, 0x7a), (0xb5, 0xb5), (0xdf, 0xf6), (0xf8, 0xff), (0x101, 0x101), (0x103, 0x103),
    (0x105, 0x105), (0x107, 0x107), (0x109, 0x109), (0x10b, 0x10b), (0x10d, 0x10d), (0x10f, 0x10f), (0x111, 0x111),
    (0x113, 0x113), (0x115, 0x115), (0x117, 0x117), (0x119, 0x119), (0x11b, 0x11b), (0x11d, 0x11d), (0x11f, 0x11f),
    (0x121, 0x121), (0x123, 0x123), (0x125, 0x125), (0x127, 0x127), (0x129, 0x129), (0x12b, 0x12b), (0x12d, 0x12d),
    (0x12f, 0x12f), (0x131, 0x131), (0x133, 0x133), (0x135, 0x135), (0x137, 0x137), (0x138, 0x138), (0x13a, 0x13a),
    (0x13c, 0x13c), (0x13e, 0x13e), (0x140, 0x140), (0x142, 0x142), (0x144, 0x144), (0x146, 0x146), (0x148, 0x148),
    (0x149, 0x149), (0x14b, 0x14b), (0x14d, 0x14d), (0x14f, 0x14f), (0x151, 0x151), (0x153, 0x153), (0x155, 0x155),
    (0x157, 0x157), (0x159, 0x159), (0x15b, 0x15b), (0x15d, 0x15d), (0x15f, 0x15f), (0x161, 0x161), (0x163, 0x163),
    (0x165, 0x165), (0x167, 0x167), (0x169, 0x169), (0x16b, 0x16b), (0x16d, 0x16d), (0x16f, 0x16f), (0x171, 0x171),
    (0x173, 0x173), (0x175, 0x175), (0x177, 0x177), (0x17a, 0x17a), (0x17c, 0x17c), (0x17e, 0x180), (0x183, 0x183),
    (0x185, 0x185), (0x188, 0x188), (0x18c, 0x18c), (0x18d, 0x18d), (0x192, 0x192), (0x195, 0x195), (0x199, 0x19b),
    (0x19e, 0x19e), (0x1a1, 0x1a1), (0x1a3, 0x1a3), (0x1a5, 0x1a5), (0x1a8, 0x1a8), (0x1aa, 0x1aa), (0x1ab, 0x1ab),
    (0x1ad, 0x1ad), (0x1b0, 0x1b0), (0x1b4, 0x1b4), (0x1b6, 0x1b6), (0x1b9, 0x1b9), (0x1ba, 0x1ba), (0x1bd, 0x1bf),
    (0x1c6, 0x1c6), (0x1c9, 0x1c9), (0x1cc, 0x1cc), (0x1ce, 0x1ce), (0x1d0, 0x1d0), (0x1d2, 0x1d2), (0x1d4, 0x1d4),
    (0x1d6, 0x1d6), (0x1d8, 0x1d8), (0x1da, 0x1da), (0x1dc, 0x1dc), (0x1dd, 0x1dd), (0x1df, 0x1df), (0x1e1, 0x1e1),
    (0x1e3, 0x1e3), (0x1e5, 0x1e5), (0x1e7, 0x1e7), (0x1e9, 0x1e9), (0x1eb, 0x1eb), (0x1ed, 0x1ed), (0x1ef, 0x1ef),
    (0x1f0, 0x1f0), (0x1f3, 0x1f3), (0x1f5, 0x1f5), (0x1f9, 0x1f9), (0x1fb, 0x1fb), (0x1fd, 0x1fd), (0x1ff, 0x1ff),
    (0x201, 0x201), (0x203, 0x203), (0x205, 0x205), (0x207, 0x207), (0x209, 0x209), (0x20b, 0x20b), (0x20d, 0x20d),
    (0x20f, 0x20f), (0x211, 0x211), (0x213, 0x213), (0x215, 0x215), (0x217, 0x217), (0x219, 0x219), (0x21b, 0x21b),
    (0x21d, 0x21d), (0x21f, 0x21f), (0x221, 0x221), (0x223, 0x223), (0x225, 0x225), (0x227, 0x227), (0x229, 0x229),
    (0x22b, 0x22b), (0x22d, 0x22d), (0x22f, 0x22f), (0x231, 0x231), (0x233, 0x239), (0x23c, 0x23c), (0x23f, 0x23f),
    (0x240, 0x240), (0x242, 0x242), (0x247, 0x247), (0x249, 0x249), (0x24b, 0x24b), (0x24d, 0x24d), (0x24f, 0x293),
    (0x296, 0x2af), (0x371, 0x371), (0x373, 0x373), (0x377, 0x377), (0x37b, 0x37d), (0x390, 0x390), (0x3ac, 0x3ce),
    (0x3d0, 0x3d0), (0x3d1, 0x3d1), (0x3d5, 0x3d7), (0x3d9, 0x3d9), (0x3db, 0x3db), (0x3dd, 0x3dd), (0x3df, 0x3df),
    (0x3e1, 0x3e1), (0x3e3, 0x3e3), (0x3e5, 0x3e5), (0x3e7, 0x3e7), (0x3e9, 0x3e9), (0x3eb, 0x3eb), (0x3ed, 0x3ed),
    (0x3ef, 0x3f3), (0x3f5, 0x3f5), (0x3f8, 0x3f8), (0x3fb, 0x3fb), (0x3fc, 0x3fc), (0x430, 0x45f), (0x461, 0x461),
    (0x463, 0x463), (0x465, 0x465), (0x467, 0x467), (0x469, 0x469), (0x46b, 0x46b), (0x46d, 0x46d), (0x46f, 0x46f),
    (0x471, 0x471), (0x473, 0x473), (0x475, 0x475), (0x477, 0x477), (0x479, 0x479), (0x47b, 0x47b), (0x47d, 0x47d),
    (0x47f, 0x47f), (0x481, 0x481), (0x48b, 0x48b), (0x48d, 0x48d), (0x48f, 0x48f), (0x491, 0x491), (0x493, 0x493),
    (0x495, 0x495), (0x497, 0x497), (0x499, 0x499), (0x49b, 0x49b), (0x49d, 0x49d), (0x49f, 0x49f), (0x4a1, 0x4a1),
    (0x4a3, 0x4a3), (0x4a5, 0x4a5), (0x4a7, 0x4a7), (0x4a9, 0x4a9), (0x4ab, 0x4ab), (0x4ad, 0x4ad), (0x4af, 0x4af),
    (0x4b1, 0x4b1), (0x4b3, 0x4b3), (0x4b5, 0x4b5), (0x4b7, 0x4b7), (0x4b9, 0x4b9), (0x4bb, 0x4bb), (0x4bd, 0x4bd),
    (0x4bf, 0x4bf), (0x4c2, 0x4c2), (0x4c4, 0x4c4), (0x4c6, 0x4c6), (0x4c8, 0x4c8), (0x4ca, 0x4ca), (0x4cc, 0x4cc),
    (0x4ce, 0x4ce), (0x4cf, 0x4cf), (0x4d1, 0x4d1), (0x4d3, 0x4d3), (0x4d5, 0x4d5), (0x4d7, 0x4d7), (0x4d9, 0x4d9),
    (0x4db, 0x4db), (0x4dd, 0x4dd), (0x4df, 0x4df), (0x4e1, 0x4e1), (0x4e3, 0x4e3), (0x4e5, 0x4e5), (0x4e7, 0x4e7),
    (0x4e9, 0x4e9), (0x4eb, 0x4eb), (0x4ed, 0x4ed), (0x4ef, 0x4ef), (0x4f1, 0x4f1), (0x4f3, 0x4f3), (0x4f5, 0x4f5),
    (0x4f7, 0x4f7), (0x4f9, 0x4f9), (0x4fb, 0x4fb), (0x4fd, 0x4fd), (0x4ff, 0x4ff), (0x501, 0x501), (0x503, 0x503),
    (0x505, 0x505), (0x507, 0x507), (0x509, 0x509), (0x50b, 0x50b), (0x50d, 0x50d), (0x50f, 0x50f), (0x511, 0x511),
    (0x513, 0x513), (0x515, 0x515), (0x517, 0x517), (0x519, 0x519), (0x51b, 0x51b), (0x51d, 0x51d), (0x51f, 0x51f),
    (0x521, 0x521), (0x523, 0x523), (0x525, 0x525), (0x527, 0x527), (0x529, 0x529), (0x52b, 0x52b), (0x52d, 0x52d),
    (0x52f, 0x52f), (0x560, 0x588), (0x10d0, 0x10fa), (0x10fd, 0x10ff), (0x13f8, 0x13fd), (0x1c80, 0x1c88),
    (0x1c8a, 0x1c8a), (0x1d00, 0x1d2b), (0x1d6b, 0x1d77), (0x1d79, 0x1d9a), (0x1e01, 0x1e01), (0x1e03, 0x1e03),
    (0x1e05, 0x1e05), (0x1e07, 0x1e07), (0x1e09, 0x1e09), (0x1e0b, 0x1e0b), (0x1e0d, 0x1e0d), (0x1e0f, 0x1e0f),
    (0x1e11, 0x1e11), (0x1e13, 0x1e13), (0x1e15, 0x1e15), (0x1e17, 0x1e17), (0x1e19, 0x1e19), (0x1e1b, 0x1e1b),
    (0x1e1d, 0x1e1d), (0x1e1f, 0x1e1f), (0x1e21, 0x1e21), (0x1e23, 0x1e23), (0x1e25, 0x1e25), (0x1e27, 0x1e27),
    (0x1e29, 0x1e29), (0x1e2b, 0x1e2b), (0x1e2d, 0x1e2d), (0x1e2f, 0x1e2f), (0x1e31, 0x1e31), (0x1e33, 0x1e33),
    (0x1e35, 0x1e35), (0x1e37, 0x1e37), (0x1e39, 0x1e39), (0x1e3b, 0x1e3b), (0x1e3d, 0x1e3d), (0x1e3f, 0x1e3f),
    (0x1e41, 0x1e41), (0x1e43, 0x1e43), (0x1e45, 0x1e45), (0x1e47, 0x1e47), (0x1e49, 0x1e49), (0x1e4b, 0x1e4b),
    (0x1e4d, 0x1e4d), (0x1e4f, 0x1e4f), (0x1e51, 0x1e51), (0x1e53, 0x1e53), (0x1e55, 0x1e55), (0x1e57, 0x1e57),
    (0x1e59, 0x1e59), (0x1e5b, 0x1e5b), (0x1e5d, 0x1e5d), (0x1e5f, 0x1e5f), (0x1e61, 0x1e61), (0x1e63, 0x1e63),
    (0x1e65, 0x1e65), (0x1e67, 0x1e67), (0x1e69, 0x1e69), (0x1e6b, 0x1e6b), (0x1e6d, 0x1e6d), (0x1e6f, 0x1e6f),
    (0x1e71, 0x1e71), (0x1e73, 0x1e73), (0x1e75, 0x1e75), (0x1e77, 0x1e77), (0x1e79, 0x1e79), (0x1e7b, 0x1e7b),
    (0x1e7d, 0x1e7d), (0x1e7f, 0x1e7f), (0x1e81, 0x1e81), (0x1e83, 0x1e83), (0x1e85, 0x1e85), (0x1e87, 0x1e87),
    (0x1e89, 0x1e89), (0x1e8b, 0x1e8b), (0x1e8d, 0x1e8d), (0x1e8f, 0x1e8f), (0x1e91, 0x1e91), (0x1e93, 0x1e93),
    (0x1e95, 0x1e9d), (0x1e9f, 0x1e9f), (0x1ea1, 0x1ea1), (0x1ea3, 0x1ea3), (0x1ea5, 0x1ea5), (0x1ea7, 0x1ea7),
    (0x1ea9, 0x1ea9), (0x1eab, 0x1eab), (0x1ead, 0x1ead), (0x1eaf, 0x1eaf), (0x1eb1, 0x1eb1), (0x1eb3, 0x1eb3),
    (0x1eb5, 0x1eb5), (0x1eb7, 0x1eb7), (0x1eb9, 0x1eb9), (0x1ebb, 0x1ebb), (0x1ebd, 0x1ebd), (0x1ebf, 0x1ebf),
    (0x1ec1, 0x1ec1), (0x1ec3, 0x1ec3), (0x1ec5, 0x1ec5), (0x1ec7, 0x1ec7), (0x1ec9, 0x1ec9), (0x1ecb, 0x1ecb),
    (0x1ecd, 0x1ecd), (0x1ecf, 0x1ecf), (0x1ed1, 0x1ed1), (0x1ed3, 0x1ed3), (0x1ed5, 0x1ed5), (0x1ed7, 0x1ed7),
    (0x1ed9, 0x1ed9), (0x1edb, 0x1edb), (0x1edd, 0x1edd), (0x1edf, 0x1edf), (0x1ee1, 0x1ee1), (0x1ee3, 0x1ee3),
    (0x1ee5, 0x1ee5), (0x1ee7, 0x1ee7), (0x1ee9, 0x1ee9), (0x1eeb, 0x1eeb), (0x1eed, 0x1eed), (0x1eef, 0x1eef),
    (0x1ef1, 0x1ef1), (0x1ef3, 0x1ef3), (0x1ef5, 0x1ef5), (0x1ef7, 0x1ef7), (0x1ef9, 0x1ef9), (0x1efb, 0x1efb),
    (0x1efd, 0x1efd), (0x1eff, 0x1f07), (0x1f10, 0x1f15), (0x1f20, 0x1f27), (0x1f30, 0x1f37), (0x1f40, 0x1f45),
    (0x1f50, 0x1f57), (0x1f60, 0x1f67), (0x1f70, 0x1f7d), (0x1f80, 0x1f87), (0x1f90, 0x1f97), (0x1fa0, 0x1fa7),
    (0x1fb0, 0x1fb4), (0x1fb6, 0x1fb6), (0x1fb7, 0x1fb7), (0x1fbe, 0x1fbe), (0x1fc2, 0x1fc4), (0x1fc6, 0x1fc6),
    (0x1fc7, 0x1fc7), (0x1fd0, 0x1fd3), (0x1fd6, 0x1fd6), (0x1fd7, 0x1fd7), (0x1fe0, 0x1fe7), (0x1ff2, 0x1ff4),
    (0x1ff6, 0x1ff6), (0x1ff7, 0x1ff7), (0x210a, 0x210a), (0x210e, 0x210e), (0x210f, 0x210f), (0x2113, 0x2113),
    (0x212f, 0x212f), (0x2134, 0x2134), (0x2139, 0x2139), (0x213c, 0x213c), (0x213d, 0x213d), (0x2146, 0x2149),
    (0x214e, 0x214e), (0x2184, 0x2184), (0x2c30, 0x2c5f), (0x2c61, 0x2c61), (0x2c65, 0x2c65), (0x2c66, 0x2c66),
    (0x2c68, 0x2c68), (0x2c6a, 0x2c6a), (0x2c6c, 0x2c6c), (0x2c71, 0x2c71), (0x2c73, 0x2c73), (0x2c74, 0x2c74),
    (0x2c76, 0x2c7b), (0x2c81, 0x2c81), (0x2c83, 0x2c83), (0x2c85, 0x2c85), (0x2c87, 0x2c87), (0x2c89, 0x2c89),
    (0x2c8b, 0x2c8b), (0x2c8d, 0x2c8d), (0x2c8f, 0x2c8f), (0x2c91, 0x2c91), (0x2c93, 0x2c93), (0x2c95, 0x2c95),
    (0x2c97, 0x2c97), (0x2c99, 0x2c99), (0x2c9b, 0x2c9b), (0x2c9d, 0x2c9d), (0x2c9f, 0x2c9f), (0x2ca1, 0x2ca1),
    (0x2ca3, 0x2ca3), (0x2ca5, 0x2ca5), (0x2ca7, 0x2ca7), (0x2ca9, 0x2ca9), (0x2cab, 0x2cab), (0x2cad, 0x2cad),
    (0x2caf, 0x2caf), (0x2cb1, 0x2cb1), (0x2cb3, 0x2cb3), (0x2cb5, 0x2cb5), (0x2cb7, 0x2cb7), (0x2cb9, 0x2cb9),
    (0x2cbb, 0x2cbb), (0x2cbd, 0x2cbd), (0x2cbf, 0x2cbf), (0x2cc1, 0x2cc1), (0x2cc3, 0x2cc3), (0x2cc5, 0x2cc5),
    (0x2cc7, 0x2cc7), (0x2cc9, 0x2cc9), (0x2ccb, 0x2ccb), (0x2ccd, 0x2ccd), (0x2ccf, 0x2ccf), (0x2cd1, 0x2cd1),
    (0x2cd3, 0x2cd3), (0x2cd5, 0x2cd5), (0x2cd7, 0x2cd7), (0x2cd9, 0x2cd9), (0x2cdb, 0x2cdb), (0x2cdd, 0x2cdd),
    (0x2cdf, 0x2cdf), (0x2ce1, 0x2ce1), (0x2ce3, 0x2ce3), (0x2ce4, 0x2ce4), (0x2cec, 0x2cec), (0x2cee, 0x2cee),
    (0x2cf3, 0x2cf3), (0x2d00, 0x2d25), (0x2d27, 0x2d27), (0x2d2d, 0x2d2d), (0xa641, 0xa641), (0xa643, 0xa643),
    (0xa645, 0xa645), (0xa647, 0xa647), (0xa649, 0xa649), (0xa64b, 0xa64b), (0xa64d, 0xa64d), (0xa64f, 0xa64f),
    (0xa651, 0xa651), (0xa653, 0xa653), (0xa655, 0xa655), (0xa657, 0xa657), (0xa659, 0xa659), (0xa65b, 0xa65b),
    (0xa65d, 0xa65d), (0xa65f, 0xa65f), (0xa661, 0xa661), (0xa663, 0xa663), (0xa665, 0xa665), (0xa667, 0xa667),
    (0xa669, 0xa669), (0xa66b, 0xa66b), (0xa66d, 0xa66d), (0xa681, 0xa681), (0xa683, 0xa683), (0xa685, 0xa685),
    (0xa687, 0xa687), (0xa689, 0xa689), (0xa68b, 0xa68b), (0xa68d, 0xa68d), (0xa68f, 0xa68f), (0xa691, 0xa691),
    (0xa693, 0xa693), (0xa695, 0xa695), (0xa697, 0xa697), (0xa699, 0xa699), (0xa69b, 0xa69b), (0xa723, 0xa723),
    (0xa725, 0xa725), (0xa727, 0xa727), (0xa729, 0xa729), (0xa72b, 0xa72b), (0xa72d, 0xa72d), (0xa72f, 0xa731),
    (0xa733, 0xa733), (0xa735, 0xa735), (0xa737, 0xa737), (0xa739, 0xa739), (0xa73b, 0xa73b), (0xa73d, 0xa73d),
    (0xa73f, 0xa73f), (0xa741, 0xa741), (0xa743, 0xa743), (0xa745, 0xa745), (0xa747, 0xa747), (0xa749, 0xa749),
    (0xa74b, 0xa74b), (0xa74d, 0xa74d), (0xa74f, 0xa74f), (0xa751, 0xa751), (0xa753, 0xa753), (0xa755, 0xa755),
    (0xa757, 0xa757), (0xa759, 0xa759), (0xa75b, 0xa75b), (0xa75d, 0xa75d), (0xa75f, 0xa75f), (0xa761, 0xa761),
    (0xa763, 0xa763), (0xa765, 0xa765), (0xa767, 0xa767), (0xa769, 0xa769), (0xa76b, 0xa76b), (0xa76d, 0xa76d),
    (0xa76f, 0xa76f), (0xa771, 0xa778), (0xa77a, 0xa77a), (0xa77c, 0xa77c), (0xa77f, 0xa77f), (0xa781, 0xa781),
    (0xa783, 0xa783), (0xa785, 0xa785), (0xa787, 0xa787), (0xa78c, 0xa78c), (0xa78e, 0xa78e), (0xa791, 0xa791),
    (0xa793, 0xa795), (0xa797, 0xa797), (0xa799, 0xa799), (0xa79b, 0xa79b), (0xa79d, 0xa79d), (0xa79f, 0xa79f),
    (0xa7a1, 0xa7a1), (0xa7a3, 0xa7a3), (0xa7a5, 0xa7a5), (0xa7a7, 0xa7a7), (0xa7a9, 0xa7a9), (0xa7af, 0xa7af),
    (0xa7b5, 0xa7b5), (0xa7b7, 0xa7b7), (0xa7b9, 0xa7b9), (0xa7bb, 0xa7bb), (0xa7bd, 0xa7bd), (0xa7bf, 0xa7bf),
    (0xa7c1, 0xa7c1), (0xa7c3, 0xa7c3), (0xa7c8, 0xa7c8), (0xa7ca, 0xa7ca), (0xa7cd, 0xa7cd), (0xa7cf, 0xa7cf),
    (0xa7d1, 0xa7d1), (0xa7d3, 0xa7d3), (0xa7d5, 0xa7d5), (0xa7d7, 0xa7d7), (0xa7d9, 0xa7d9), (0xa7db, 0xa7db),
    (0xa7f6, 0xa7f6), (0xa7fa, 0xa7fa), (0xab30, 0xab5a), (0xab60, 0xab68), (0xab70, 0xabbf), (0xfb00, 0xfb06),
    (0xfb13, 0xfb17), (0xff41, 0xff5a), (0x10428, 0x1044f), (0x104d8, 0x104fb), (0x10597, 0x105a1),
    (0x105a3, 0x105b1), (0x105b3, 0x105b9), (0x105bb, 0x105bb), (0x105bc, 0x105bc), (0x10cc0, 0x10cf2),
    (0x10d70, 0x10d85), (0x118c0, 0x118df), (0x16e60, 0x16e7f), (0x16ebb, 0x16ed3), (0x1d41a, 0x1d433),
    (0x1d44e, 0x1d454), (0x1d456, 0x1d467), (0x1d482, 0x1d49b), (0x1d4b6, 0x1d4b9), (0x1d4bb, 0x1d4bb),
    (0x1d4bd, 0x1d4c3), (0x1d4c5, 0x1d4cf), (0x1d4ea, 0x1d503), (0x1d51e, 0x1d537), (0x1d552, 0x1d56b),
    (0x1d586, 0x1d59f), (0x1d5ba, 0x1d5d3), (0x1d5ee, 0x1d607), (0x1d622, 0x1d63b), (0x1d656, 0x1d66f),
    (0x1d68a, 0x1d6a5), (0x1d6c2, 0x1d6da), (0x1d6dc, 0x1d6e1), (0x1d6fc, 0x1d714), (0x1d716, 0x1d71b),
    (0x1d736, 0x1d74e), (0x1d750, 0x1d755), (0x1d770, 0x1d788), (0x1d78a, 0x1d78f), (0x1d7aa, 0x1d7c2),
    (0x1d7c4, 0x1d7c9), (0x1d7cb, 0x1d7cb), (0x1df00, 0x1df09), (0x1df0b, 0x1df1e), (0x1df25, 0x1df2a),
    (0x1e922, 0x1e943)]

/-- parser/tokeniser/unicode.hpp:156-172. -/
def pLm : PropText :=
  .ranges false [(0x2b0, 0x2c1), (0x2c6, 0x2d1), (0x2e0, 0x2e4), (0x2ec, 0x2ec), (0x2ee, 0x2ee), (0x374, 0x374),
    (0x37a, 0x37a), (0x559, 0x559), (0x640, 0x640), (0x6e5, 0x6e5), (0x6e6, 0x6e6), (0x7f4, 0x7f4), (0x7f5, 0x7f5),
    (0x7fa, 0x7fa), (0x81a, 0x81a), (0x824, 0x824), (0x828, 0x828), (0x8c9, 0x8c9), (0x971, 0x971), (0xe46, 0xe46),
    (0xec6, 0xec6), (0x10fc, 0x10fc), (0x17d7, 0x17d7), (0x1843, 0x1843), (0x1aa7, 0x1aa7), (0x1c78, 0x1c7d),
    (0x1d2c, 0x1d6a), (0x1d78, 0x1d78), (0x1d9b, 0x1dbf), (0x2071, 0x2071), (0x207f, 0x207f), (0x2090, 0x209c),
    (0x2c7c, 0x2c7c), (0x2c7d, 0x2c7d), (0x2d6f, 0x2d6f), (0x2e2f, 0x2e2f), (0x3005, 0x3005), (0x3031, 0x3035),
    (0x303b, 0x303b), (0x309d, 0x309d), (0x309e, 0x309e), (0x30fc, 0x30fe), (0xa015, 0xa015), (0xa4f8, 0xa4fd),
    (0xa60c, 0xa60c), (0xa67f, 0xa67f), (0xa69c, 0xa69c), (0xa69d, 0xa69d), (0xa717, 0xa71f), (0xa770, 0xa770),
    (0xa788, 0xa788), (0xa7f1, 0xa7f4), (0xa7f8, 0xa7f8), (0xa7f9, 0xa7f9), (0xa9cf, 0xa9cf), (0xa9e6, 0xa9e6),
    (0xaa70, 0xaa70), (0xaadd, 0xaadd), (0xaaf3, 0xaaf3), (0xaaf4, 0xaaf4), (0xab5c, 0xab5f), (0xab69, 0xab69),
    (0xff70, 0xff70), (0xff9e, 0xff9e), (0xff9f, 0xff9f), (0x10780, 0x10785), (0x10787, 0x107b0), (0x107b2, 0x107ba),
    (0x10d4e, 0x10d4e), (0x10d6f, 0x10d6f), (0x10ec5, 0x10ec5), (0x11dd9, 0x11dd9), (0x16b40, 0x16b43),
    (0x16d40, 0x16d42), (0x16d6b, 0x16d6b), (0x16d6c, 0x16d6c), (0x16f93, 0x16f9f), (0x16fe0, 0x16fe0),
    (0x16fe1, 0x16fe1), (0x16fe3, 0x16fe3), (0x16ff2, 0x16ff2), (0x16ff3, 0x16ff3), (0x1aff0, 0x1aff3),
    (0x1aff5, 0x1affb), (0x1affd, 0x1affd), (0x1affe, 0x1affe), (0x1e030, 0x1e06d), (0x1e137, 0x1e13d),
    (0x1e4eb, 0x1e4eb), (0x1e6ff, 0x1e6ff), (0x1e94b, 0x1e94b)]

/-- parser/tokeniser/unicode.hpp:174-304. -/
def pLo : PropText :=
  .ranges false [(0xaa, 0xaa), (0xba, 0xba), (0x1bb, 0x1bb), (0x1c0, 0x1c3), (0x294, 0x294), (0x295, 0x295),
    (0x5d0, 0x5ea), (0x5ef, 0x5f2), (0x620, 0x63f), (0x641, 0x64a), (0x66e, 0x66e), (0x66f, 0x66f), (0x671, 0x6d3),
    (0x6d5, 0x6d5), (0x6ee, 0x6ee), (0x6ef, 0x6ef), (0x6fa, 0x6fc), (0x6ff, 0x6ff), (0x710, 0x710), (0x712, 0x72f),
    (0x74d, 0x7a5), (0x7b1, 0x7b1), (0x7ca, 0x7ea), (0x800, 0x815), (0x840, 0x858), (0x860, 0x86a), (0x870, 0x887),
    (0x889, 0x88f), (0x8a0, 0x8c8), (0x904, 0x939), (0x93d, 0x93d), (0x950, 0x950), (0x958, 0x961), (0x972, 0x980),
    (0x985, 0x98c), (0x98f, 0x98f), (0x990, 0x990), (0x993, 0x9a8), (0x9aa, 0x9b0), (0x9b2, 0x9b2), (0x9b6, 0x9b9),
    (0x9bd, 0x9bd), (0x9ce, 0x9ce), (0x9dc, 0x9dc), (0x9dd, 0x9dd), (0x9df, 0x9e1), (0x9f0, 0x9f0), (0x9f1, 0x9f1),
    (0x9fc, 0x9fc), (0xa05, 0xa0a), (0xa0f, 0xa0f), (0xa10, 0xa10), (0xa13, 0xa28), (0xa2a, 0xa30), (0xa32, 0xa32),
    (0xa33, 0xa33), (0xa35, 0xa35), (0xa36, 0xa36), (0xa38, 0xa38), (0xa39, 0xa39), (0xa59, 0xa5c), (0xa5e, 0xa5e),
    (0xa72, 0xa74), (0xa85, 0xa8d), (0xa8f, 0xa91), (0xa93, 0xaa8), (0xaaa, 0xab0), (0xab2, 0xab2), (0xab3, 0xab3),
    (0xab5, 0xab9), (0xabd, 0xabd), (0xad0, 0xad0), (0xae0, 0xae0), (0xae1, 0xae1), (0xaf9, 0xaf9), (0xb05, 0xb0c),
    (0xb0f, 0xb0f), (0xb10, 0xb10), (0xb13, 0xb28), (0xb2a, 0xb30), (0xb32, 0xb32), (0xb33, 0xb33), (0xb35, 0xb39),
    (0xb3d, 0xb3d), (0xb5c, 0xb5c), (0xb5d, 0xb5d), (0xb5f, 0xb61), (0xb71, 0xb71), (0xb83, 0xb83), (0xb85, 0xb8a),
    (0xb8e, 0xb90), (0xb92, 0xb95), (0xb99, 0xb99), (0xb9a, 0xb9a), (0xb9c, 0xb9c), (0xb9e, 0xb9e), (0xb9f, 0xb9f),
    (0xba3, 0xba3), (0xba4, 0xba4), (0xba8, 0xbaa), (0xbae, 0xbb9), (0xbd0, 0xbd0), (0xc05, 0xc0c), (0xc0e, 0xc10),
    (0xc12, 0xc28), (0xc2a, 0xc39), (0xc3d, 0xc3d), (0xc58, 0xc5a), (0xc5c, 0xc5c), (0xc5d, 0xc5d), (0xc60, 0xc60),
    (0xc61, 0xc61), (0xc80, 0xc80), (0xc85, 0xc8c), (0xc8e, 0xc90), (0xc92, 0xca8), (0xcaa, 0xcb3), (0xcb5, 0xcb9),
    (0xcbd, 0xcbd), (0xcdc, 0xcde), (0xce0, 0xce0), (0xce1, 0xce1), (0xcf1, 0xcf1), (0xcf2, 0xcf2), (0xd04, 0xd0c),
    (0xd0e, 0xd10), (0xd12, 0xd3a), (0xd3d, 0xd3d), (0xd4e, 0xd4e), (0xd54, 0xd56), (0xd5f, 0xd61), (0xd7a, 0xd7f),
    (0xd85, 0xd96), (0xd9a, 0xdb1), (0xdb3, 0xdbb), (0xdbd, 0xdbd), (0xdc0, 0xdc6), (0xe01, 0xe30), (0xe32, 0xe32),
    (0xe33, 0xe33), (0xe40, 0xe45), (0xe81, 0xe81), (0xe82, 0xe82), (0xe84, 0xe84), (0xe86, 0xe8a), (0xe8c, 0xea3),
    (0xea5, 0xea5), (0xea7, 0xeb0), (0xeb2, 0xeb2), (0xeb3, 0xeb3), (0xebd, 0xebd), (0xec0, 0xec4), (0xedc, 0xedf),
    (0xf00, 0xf00), (0xf40, 0xf47), (0xf49, 0xf6c), (0xf88, 0xf8c), (0x1000, 0x102a), (0x103f, 0x103f),
    (0x1050, 0x1055), (0x105a, 0x105d), (0x1061, 0x1061), (0x1065, 0x1065), (0x1066, 0x1066), (0x106e, 0x1070),
    (0x1075, 0x1081), (0x108e, 0x108e), (0x1100, 0x1248), (0x124a, 0x124d), (0x1250, 0x1256), (0x1258, 0x1258),
    (0x125a, 0x125d), (0x1260, 0x1288), (0x128a, 0x128d), (0x1290, 0x12b0), (0x12b2, 0x12b5), (0x12b8, 0x12be),
    (0x12c0, 0x12c0), (0x12c2, 0x12c5), (0x12c8, 0x12d6), (0x12d8, 0x1310), (0x1312, 0x1315), (0x1318, 0x135a),
    (0x1380, 0x138f), (0x1401, 0x166c), (0x166f, 0x167f), (0x1681, 0x169a), (0x16a0, 0x16ea), (0x16f1, 0x16f8),
    (0x1700, 0x1711), (0x171f, 0x1731), (0x1740, 0x1751), (0x1760, 0x176c), (0x176e, 0x1770), (0x1780, 0x17b3),
    (0x17dc, 0x17dc), (0x1820, 0x1842), (0x1844, 0x1878), (0x1880, 0x1884), (0x1887, 0x18a8), (0x18aa, 0x18aa),
    (0x18b0, 0x18f5), (0x1900, 0x191e), (0x1950, 0x196d), (0x1970, 0x1974), (0x1980, 0x19ab), (0x19b0, 0x19c9),
    (0x1a00, 0x1a16), (0x1a20, 0x1a54), (0x1b05, 0x1b33), (0x1b45, 0x1b4c), (0x1b83, 0x1ba0), (0x1bae, 0x1bae),
    (0x1baf, 0x1baf), (0x1bba, 0x1be5), (0x1c00, 0x1c23), (0x1c4d, 0x1c4f), (0x1c5a, 0x1c77), (0x1ce9, 0x1cec),
    (0x1cee, 0x1cf3), (0x1cf5, 0x1cf5), (0x1cf6, 0x1cf6), (0x1cfa, 0x1cfa), (0x2135, 0x2138), (0x2d30, 0x2d67),
    (0x2d80, 0x2d96), (0x2da0, 0x2da6), (0x2da8, 0x2dae), (0x2db0, 0x2db6), (0x2db8, 0x2dbe), (0x2dc0, 0x2dc6),
    (0x2dc8, 0x2dce), (0x2dd0, 0x2dd6), (0x2dd8, 0x2dde), (0x3006, 0x3006), (0x303c, 0x303c), (0x3041, 0x3096),
    (0x309f, 0x309f), (0x30a1, 0x30fa), (0x30ff, 0x30ff), (0x3105, 0x312f), (0x3131, 0x318e), (0x31a0, 0x31bf),
    (0x31f0, 0x31ff), (0x3400, 0x3400), (0x4dbf, 0x4dbf), (0x4e00, 0x4e00), (0x9fff, 0xa014), (0xa016, 0xa48c),
    (0xa4d0, 0xa4f7), (0xa500, 0xa60b), (0xa610, 0xa61f), (0xa62a, 0xa62a), (0xa62b, 0xa62b), (0xa66e, 0xa66e),
    (0xa6a0, 0xa6e5), (0xa78f, 0xa78f), (0xa7f7, 0xa7f7), (0xa7fb, 0xa801), (0xa803, 0xa805), (0xa807, 0xa80a),
    (0xa80c, 0xa822), (0xa840, 0xa873), (0xa882, 0xa8b3), (0xa8f2, 0xa8f7), (0xa8fb, 0xa8fb), (0xa8fd, 0xa8fd),
    (0xa8fe, 0xa8fe), (0xa90a, 0xa925), (0xa930, 0xa946), (0xa960, 0xa97c), (0xa984, 0xa9b2), (0xa9e0, 0xa9e4),
    (0xa9e7, 0xa9ef), (0xa9fa, 0xa9fe), (0xaa00, 0xaa28), (0xaa40, 0xaa42), (0xaa44, 0xaa4b), (0xaa60, 0xaa6f),
    (0xaa71, 0xaa76), (0xaa7a, 0xaa7a), (0xaa7e, 0xaaaf), (0xaab1, 0xaab1), (0xaab5, 0xaab5), (0xaab6, 0xaab6),
    (0xaab9, 0xaabd), (0xaac0, 0xaac0), (0xaac2, 0xaac2), (0xaadb, 0xaadb), (0xaadc, 0xaadc), (0xaae0, 0xaaea),
    (0xaaf2, 0xaaf2), (0xab01, 0xab06), (0xab09, 0xab0e), (0xab11, 0xab16), (0xab20, 0xab26), (0xab28, 0xab2e),
    (0xabc0, 0xabe2), (0xac00, 0xac00), (0xd7a3, 0xd7a3), (0xd7b0, 0xd7c6), (0xd7cb, 0xd7fb), (0xf900, 0xfa6d),
    (0xfa70, 0xfad9), (0xfb1d, 0xfb1d), (0xfb1f, 0xfb28), (0xfb2a, 0xfb36), (0xfb38, 0xfb3c), (0xfb3e, 0xfb3e),
    (0xfb40, 0xfb40), (0xfb41, 0xfb41), (0xfb43, 0xfb43), (0xfb44, 0xfb44), (0xfb46, 0xfbb1), (0xfbd3, 0xfd3d),
    (0xfd50, 0xfd8f), (0xfd92, 0xfdc7), (0xfdf0, 0xfdfb), (0xfe70, 0xfe74), (0xfe76, 0xfefc), (0xff66, 0xff6f),
    (0xff71, 0xff9d), (0xffa0, 0xffbe), (0xffc2, 0xffc7), (0xffca, 0xffcf), (0xffd2, 0xffd7), (0xffda, 0xffdc),
    (0x10000, 0x1000b), (0x1000d, 0x10026), (0x10028, 0x1003a), (0x1003c, 0x1003c), (0x1003d, 0x1003d),
    (0x1003f, 0x1004d), (0x10050, 0x1005d), (0x10080, 0x100fa), (0x10280, 0x1029c), (0x102a0, 0x102d0),
    (0x10300, 0x1031f), (0x1032d, 0x10340), (0x10342, 0x10349), (0x10350, 0x10375), (0x10380, 0x1039d),
    (0x103a0, 0x103c3), (0x103c8, 0x103cf), (0x10450, 0x1049d), (0x10500, 0x10527), (0x10530, 0x10563),
    (0x105c0, 0x105f3), (0x10600, 0x10736), (0x10740, 0x10755), (0x10760, 0x10767), (0x10800, 0x10805),
    (0x10808, 0x10808), (0x1080a, 0x10835), (0x10837, 0x10837), (0x10838, 0x10838), (0x1083c, 0x1083c),
    (0x1083f, 0x10855), (0x10860, 0x10876), (0x10880, 0x1089e), (0x108e0, 0x108f2), (0x108f4, 0x108f4),
    (0x108f5, 0x108f5), (0x10900, 0x10915), (0x10920, 0x10939), (0x10940, 0x10959), (0x10980, 0x109b7),
    (0x109be, 0x109be), (0x109bf, 0x109bf), (0x10a00, 0x10a00), (0x10a10, 0x10a13), (0x10a15, 0x10a17),
    (0x10a19, 0x10a35), (0x10a60, 0x10a7c), (0x10a80, 0x10a9c), (0x10ac0, 0x10ac7), (0x10ac9, 0x10ae4),
    (0x10b00, 0x10b35), (0x10b40, 0x10b55), (0x10b60, 0x10b72), (0x10b80, 0x10b91), (0x10c00, 0x10c48),
    (0x10d00, 0x10d23), (0x10d4a, 0x10d4d), (0x10d4f, 0x10d4f), (0x10e80, 0x10ea9), (0x10eb0, 0x10eb0),
    (0x10eb1, 0x10eb1), (0x10ec2, 0x10ec4), (0x10ec6, 0x10ec6), (0x10ec7, 0x10ec7), (0x10f00, 0x10f1c),
    (0x10f27, 0x10f27), (0x10f30, 0x10f45), (0x10f70, 0x10f81), (0x10fb0, 0x10fc4), (0x10fe0, 0x10ff6),
    (0x11003, 0x11037), (0x11071, 0x11071), (0x11072, 0x11072), (0x11075, 0x11075), (0x11083, 0x110af),
    (0x110d0, 0x110e8), (0x11103, 0x11126), (0x11144, 0x11144), (0x11147, 0x11147), (0x11150, 0x11172),
    (0x11176, 0x11176), (0x11183, 0x111b2), (0x111c1, 0x111c4), (0x111da, 0x111da), (0x111dc, 0x111dc),
    (0x11200, 0x11211), (0x11213, 0x1122b), (0x1123f, 0x1123f), (0x11240, 0x11240), (0x11280, 0x11286),
    (0x11288, 0x11288), (0x1128a, 0x1128d), (0x1128f, 0x1129d), (0x1129f, 0x112a8), (0x112b0, 0x112de),
    (0x11305, 0x1130c), (0x1130f, 0x1130f), (0x11310, 0x11310), (0x11313, 0x11328), (0x1132a, 0x11330),
    (0x11332, 0x11332), (0x11333, 0x11333), (0x11335, 0x11339), (0x1133d, 0x1133d), (0x11350, 0x11350),
    (0x1135d, 0x11361), (0x11380, 0x11389), (0x1138b, 0x1138b), (0x1138e, 0x1138e), (0x11390, 0x113b5),
    (0x113b7, 0x113b7), (0x113d1, 0x113d1), (0x113d3, 0x113d3), (0x11400, 0x11434), (0x11447, 0x1144a),
    (0x1145f, 0x11461), (0x11480, 0x114af), (0x114c4, 0x114c4), (0x114c5, 0x114c5), (0x114c7, 0x114c7),
    (0x11580, 0x115ae), (0x115d8, 0x115db), (0x11600, 0x1162f), (0x11644, 0x11644), (0x11680, 0x116aa),
    (0x116b8, 0x116b8), (0x11700, 0x1171a), (0x11740, 0x11746), (0x11800, 0x1182b), (0x118ff, 0x11906),
    (0x11909, 0x11909), (0x1190c, 0x11913), (0x11915, 0x11915), (0x11916, 0x11916), (0x11918, 0x1192f),
    (0x1193f, 0x1193f), (0x11941, 0x11941), (0x119a0, 0x119a7), (0x119aa, 0x119d0), (0x119e1, 0x119e1),
    (0x119e3, 0x119e3), (0x11a00, 0x11a00), (0x11a0b, 0x11a32), (0x11a3a, 0x11a3a), (0x11a50, 0x11a50),
    (0x11a5c, 0x11a89), (0x11a9d, 0x11a9d), (0x11ab0, 0x11af8), (0x11bc0, 0x11be0), (0x11c00, 0x11c08),
    (0x11c0a, 0x11c2e), (0x11c40, 0x11c40), (0x11c72, 0x11c8f), (0x11d00, 0x11d06), (0x11d08, 0x11d08),
    (0x11d09, 0x11d09), (0x11d0b, 0x11d30), (0x11d46, 0x11d46), (0x11d60, 0x11d65), (0x11d67, 0x11d67),
    (0x11d68, 0x11d68), (0x11d6a, 0x11d89), (0x11d98, 0x11d98), (0x11db0, 0x11dd8), (0x11dda, 0x11dda),
    (0x11ddb, 0x11ddb), (0x11ee0, 0x11ef2), (0x11f02, 0x11f02), (0x11f04, 0x11f10), (0x11f12, 0x11f33),
    (0x11fb0, 0x11fb0), (0x12000, 0x12399), (0x12480, 0x12543), (0x12f90, 0x12ff0), (0x13000, 0x1342f),
    (0x13441, 0x13446), (0x13460, 0x143fa), (0x14400, 0x14646), (0x16100, 0x1611d), (0x16800, 0x16a38),
    (0x16a40, 0x16a5e), (0x16a70, 0x16abe), (0x16ad0, 0x16aed), (0x16b00, 0x16b2f), (0x16b63, 0x16b77),
    (0x16b7d, 0x16b8f), (0x16d43, 0x16d6a), (0x16f00, 0x16f4a), (0x16f50, 0x16f50), (0x17000, 0x17000),
    (0x187ff, 0x18cd5), (0x18cff, 0x18cff), (0x18d00, 0x18d00), (0x18d1e, 0x18d1e), (0x18d80, 0x18df2),
    (0x1b000, 0x1b122), (0x1b132, 0x1b132), (0x1b150, 0x1b152), (0x1b155, 0x1b155), (0x1b164, 0x1b167),
    (0x1b170, 0x1b2fb), (0x1bc00, 0x1bc6a), (0x1bc70, 0x1bc7c), (0x1bc80, 0x1bc88), (0x1bc90, 0x1bc99),
    (0x1df0a, 0x1df0a), (0x1e100, 0x1e12c), (0x1e14e, 0x1e14e), (0x1e290, 0x1e2ad), (0x1e2c0, 0x1e2eb),
    (0x1e4d0, 0x1e4ea), (0x1e5d0, 0x1e5ed), (0x1e5f0, 0x1e5f0), (0x1e6c0, 0x1e6de), (0x1e6e0, 0x1e6e2),
    (0x1e6e4, 0x1e6e4), (0x1e6e5, 0x1e6e5), (0x1e6e7, 0x1e6ed), (0x1e6f0, 0x1e6f4), (0x1e6fe, 0x1e6fe),
    (0x1e7e0, 0x1e7e6), (0x1e7e8, 0x1e7eb), (0x1e7ed, 0x1e7ed), (0x1e7ee, 0x1e7ee), (0x1e7f0, 0x1e7fe),
    (0x1e800, 0x1e8c4), (0x1ee00, 0x1ee03), (0x1ee05, 0x1ee1f), (0x1ee21, 0x1ee21), (0x1ee22, 0x1ee22),
    (0x1ee24, 0x1ee24), (0x1ee27, 0x1ee27), (0x1ee29, 0x1ee32), (0x1ee34, 0x1ee37), (0x1ee39, 0x1ee39),
    (0x1ee3b, 0x1ee3b), (0x1ee42, 0x1ee42), (0x1ee47, 0x1ee47), (0x1ee49, 0x1ee49), (0x1ee4b, 0x1ee4b),
    (0x1ee4d, 0x1ee4f), (0x1ee51, 0x1ee51), (0x1ee52, 0x1ee52), (0x1ee54, 0x1ee54), (0x1ee57, 0x1ee57),
    (0x1ee59, 0x1ee59), (0x1ee5b, 0x1ee5b), (0x1ee5d, 0x1ee5d), (0x1ee5f, 0x1ee5f), (0x1ee61, 0x1ee61),
    (0x1ee62, 0x1ee62), (0x1ee64, 0x1ee64), (0x1ee67, 0x1ee6a), (0x1ee6c, 0x1ee72), (0x1ee74, 0x1ee77),
    (0x1ee79, 0x1ee7c), (0x1ee7e, 0x1ee7e), (0x1ee80, 0x1ee89), (0x1ee8b, 0x1ee9b), (0x1eea1, 0x1eea3),
    (0x1eea5, 0x1eea9), (0x1eeab, 0x1eebb), (0x20000, 0x20000), (0x2a6df, 0x2a6df), (0x2a700, 0x2a700),
    (0x2b73f, 0x2b73f), (0x2b740, 0x2b740), (0x2b81d, 0x2b81d), (0x2b820, 0x2b820), (0x2cead, 0x2cead),
    (0x2ceb0, 0x2ceb0), (0x2ebe0, 0x2ebe0), (0x2ebf0, 0x2ebf0), (0x2ee5d, 0x2ee5d), (0x2f800, 0x2fa1d),
    (0x30000, 0x30000), (0x3134a, 0x3134a), (0x31350, 0x31350), (0x323af, 0x323af), (0x323b0, 0x323b0),
    (0x33479, 0x33479)]

/-- parser/tokeniser/unicode.hpp:306-310. -/
def pLt : PropText :=
  .ranges false [(0x1c5, 0x1c5), (0x1c8, 0x1c8), (0x1cb, 0x1cb), (0x1f2, 0x1f2), (0x1f88, 0x1f8f), (0x1f98, 0x1f9f),
    (0x1fa8, 0x1faf), (0x1fbc, 0x1fbc), (0x1fcc, 0x1fcc), (0x1ffc, 0x1ffc)]

/-- parser/tokeniser/unicode.hpp:312-398. -/
def pLu : PropText :=
  .ranges false [(0x41, 0x5a), (0xc0, 0xd6), (0xd8, 0xde), (0x100, 0x100), (0x102, 0x102), (0x104, 0x104),
    (0x106, 0x106), (0x108, 0x108), (0x10a, 0x10a), (0x10c, 0x10c), (0x10e, 0x10e), (0x110, 0x110), (0x112, 0x112),
    (0x114, 0x114), (0x116, 0x116), (0x118, 0x118), (0x11a, 0x11a), (0x11c, 0x11c), (0x11e, 0x11e), (0x120, 0x120),
    (0x122, 0x122), (0x124, 0x124), (0x126, 0x126), (0x128, 0x128), (0x12a, 0x12a), (0x12c, 0x12c), (0x12e, 0x12e),
    (0x130, 0x130), (0x132, 0x132), (0x134, 0x134), (0x136, 0x136), (0x139, 0x139), (0x13b, 0x13b), (0x13d, 0x13d),
    (0x13f, 0x13f), (0x141, 0x141), (0x143, 0x143), (0x145, 0x145), (0x147, 0x147), (0x14a, 0x14a), (0x14c, 0x14c),
    (0x14e, 0x14e), (0x150, 0x150), (0x152, 0x152), (0x154, 0x154), (0x156, 0x156), (0x158, 0x158), (0x15a, 0x15a),
    (0x15c, 0x15c), (0x15e, 0x15e), (0x160, 0x160), (0x162, 0x162), (0x164, 0x164), (0x166, 0x166), (0x168, 0x168),
    (0x16a, 0x16a), (0x16c, 0x16c), (0x16e, 0x16e), (0x170, 0x170), (0x172, 0x172), (0x174, 0x174), (0x176, 0x176),
    (0x178, 0x178), (0x179, 0x179), (0x17b, 0x17b), (0x17d, 0x17d), (0x181, 0x181), (0x182, 0x182), (0x184, 0x184),
    (0x186, 0x186), (0x187, 0x187), (0x189, 0x18b), (0x18e, 0x191), (0x193, 0x193), (0x194, 0x194), (0x196, 0x198),
    (0x19c, 0x19c), (0x19d, 0x19d), (0x19f, 0x19f), (0x1a0, 0x1a0), (0x1a2, 0x1a2), (0x1a4, 0x1a4), (0x1a6, 0x1a6),
    (0x1a7, 0x1a7), (0x1a9, 0x1a9), (0x1ac, 0x1ac), (0x1ae, 0x1ae), (0x1af, 0x1af), (0x1b1, 0x1b3), (0x1b5, 0x1b5),
    (0x1b7, 0x1b7), (0x1b8, 0x1b8), (0x1bc, 0x1bc), (0x1c4, 0x1c4), (0x1c7, 0x1c7), (0x1ca, 0x1ca), (0x1cd, 0x1cd),
    (0x1cf, 0x1cf), (0x1d1, 0x1d1), (0x1d3, 0x1d3), (0x1d5, 0x1d5), (0x1d7, 0x1d7), (0x1d9, 0x1d9), (0x1db, 0x1db),
    (0x1de, 0x1de), (0x1e0, 0x1e0), (0x1e2, 0x1e2), (0x1e4, 0x1e4), (0x1e6, 0x1e6), (0x1e8, 0x1e8), (0x1ea, 0x1ea),
    (0x1ec, 0x1ec), (0x1ee, 0x1ee), (0x1f1, 0x1f1), (0x1f4, 0x1f4), (0x1f6, 0x1f8), (0x1fa, 0x1fa), (0x1fc, 0x1fc),
    (0x1fe, 0x1fe), (0x200, 0x200), (0x202, 0x202), (0x204, 0x204), (0x206, 0x206), (0x208, 0x208), (0x20a, 0x20a),
    (0x20c, 0x20c), (0x20e, 0x20e), (0x210, 0x210), (0x212, 0x212), (0x214, 0x214), (0x216, 0x216), (0x218, 0x218),
    (0x21a, 0x21a), (0x21c, 0x21c), (0x21e, 0x21e), (0x220, 0x220), (0x222, 0x222), (0x224, 0x224), (0x226, 0x226),
    (0x228, 0x228), (0x22a, 0x22a), (0x22c, 0x22c), (0x22e, 0x22e), (0x230, 0x230), (0x232, 0x232), (0x23a, 0x23a),
    (0x23b, 0x23b), (0x23d, 0x23d), (0x23e, 0x23e), (0x241, 0x241), (0x243, 0x246), (0x248, 0x248), (0x24a, 0x24a),
    (0x24c, 0x24c), (0x24e, 0x24e), (0x370, 0x370), (0x372, 0x372), (0x376, 0x376), (0x37f, 0x37f), (0x386, 0x386),
    (0x388, 0x38a), (0x38c, 0x38c), (0x38e, 0x38e), (0x38f, 0x38f), (0x391, 0x3a1), (0x3a3, 0x3ab), (0x3cf, 0x3cf),
    (0x3d2, 0x3d4), (0x3d8, 0x3d8), (0x3da, 0x3da), (0x3dc, 0x3dc), (0x3de, 0x3de), (0x3e0, 0x3e0), (0x3e2, 0x3e2),
    (0x3e4, 0x3e4), (0x3e6, 0x3e6), (0x3e8, 0x3e8), (0x3ea, 0x3ea), (0x3ec, 0x3ec), (0x3ee, 0x3ee), (0x3f4, 0x3f4),
    (0x3f7, 0x3f7), (0x3f9, 0x3f9), (0x3fa, 0x3fa), (0x3fd, 0x42f), (0x460, 0x460), (0x462, 0x462), (0x464, 0x464),
    (0x466, 0x466), (0x468, 0x468), (0x46a, 0x46a), (0x46c, 0x46c), (0x46e, 0x46e), (0x470, 0x470), (0x472, 0x472),
    (0x474, 0x474), (0x476, 0x476), (0x478, 0x478), (0x47a, 0x47a), (0x47c, 0x47c), (0x47e, 0x47e), (0x480, 0x480),
    (0x48a, 0x48a), (0x48c, 0x48c), (0x48e, 0x48e), (0x490, 0x490), (0x492, 0x492), (0x494, 0x494), (0x496, 0x496),
    (0x498, 0x498), (0x49a, 0x49a), (0x49c, 0x49c), (0x49e, 0x49e), (0x4a0, 0x4a0), (0x4a2, 0x4a2), (0x4a4, 0x4a4),
    (0x4a6, 0x4a6), (0x4a8, 0x4a8), (0x4aa, 0x4aa), (0x4ac, 0x4ac), (0x4ae, 0x4ae), (0x4b0, 0x4b0), (0x4b2, 0x4b2),
    (0x4b4, 0x4b4), (0x4b6, 0x4b6), (0x4b8, 0x4b8), (0x4ba, 0x4ba), (0x4bc, 0x4bc), (0x4be, 0x4be), (0x4c0, 0x4c0),
    (0x4c1, 0x4c1), (0x4c3, 0x4c3), (0x4c5, 0x4c5), (0x4c7, 0x4c7), (0x4c9, 0x4c9), (0x4cb, 0x4cb), (0x4cd, 0x4cd),
    (0x4d0, 0x4d0), (0x4d2, 0x4d2), (0x4d4, 0x4d4), (0x4d6, 0x4d6), (0x4d8, 0x4d8), (0x4da, 0x4da), (0x4dc, 0x4dc),
    (0x4de, 0x4de), (0x4e0, 0x4e0), (0x4e2, 0x4e2), (0x4e4, 0x4e4), (0x4e6, 0x4e6), (0x4e8, 0x4e8), (0x4ea, 0x4ea),
    (0x4ec, 0x4ec), (0x4ee, 0x4ee), (0x4f0, 0x4f0), (0x4f2, 0x4f2), (0x4f4, 0x4f4), (0x4f6, 0x4f6), (0x4f8, 0x4f8),
    (0x4fa, 0x4fa), (0x4fc, 0x4fc), (0x4fe, 0x4fe), (0x500, 0x500), (0x502, 0x502), (0x504, 0x504), (0x506, 0x506),
    (0x508, 0x508), (0x50a, 0x50a), (0x50c, 0x50c), (0x50e, 0x50e), (0x510, 0x510), (0x512, 0x512), (0x514, 0x514),
    (0x516, 0x516), (0x518, 0x518), (0x51a, 0x51a), (0x51c, 0x51c), (0x51e, 0x51e), (0x520, 0x520), (0x522, 0x522),
    (0x524, 0x524), (0x526, 0x526), (0x528, 0x528), (0x52a, 0x52a), (0x52c, 0x52c), (0x52e, 0x52e), (0x531, 0x556),
    (0x10a0, 0x10c5), (0x10c7, 0x10c7), (0x10cd, 0x10cd), (0x13a0, 0x13f5), (0x1c89, 0x1c89), (0x1c90, 0x1cba),
    (0x1cbd, 0x1cbf), (0x1e00, 0x1e00), (0x1e02, 0x1e02), (0x1e04, 0x1e04), (0x1e06, 0x1e06), (0x1e08, 0x1e08),
    (0x1e0a, 0x1e0a), (0x1e0c, 0x1e0c), (0x1e0e, 0x1e0e), (0x1e10, 0x1e10), (0x1e12, 0x1e12), (0x1e14, 0x1e14),
    (0x1e16, 0x1e16), (0x1e18, 0x1e18), (0x1e1a, 0x1e1a), (0x1e1c, 0x1e1c), (0x1e1e, 0x1e1e), (0x1e20, 0x1e20),
    (0x1e22, 0x1e22), (0x1e24, 0x1e24), (0x1e26, 0x1e26), (0x1e28, 0x1e28), (0x1e2a, 0x1e2a), (0x1e2c, 0x1e2c),
    (0x1e2e, 0x1e2e), (0x1e30, 0x1e30), (0x1e32, 0x1e32), (0x1e34, 0x1e34), (0x1e36, 0x1e36), (0x1e38, 0x1e38),
    (0x1e3a, 0x1e3a), (0x1e3c, 0x1e3c), (0x1e3e, 0x1e3e), (0x1e40, 0x1e40), (0x1e42, 0x1e42), (0x1e44, 0x1e44),
    (0x1e46, 0x1e46), (0x1e48, 0x1e48), (0x1e4a, 0x1e4a), (0x1e4c, 0x1e4c), (0x1e4e, 0x1e4e), (0x1e50, 0x1e50),
    (0x1e52, 0x1e52), (0x1e54, 0x1e54), (0x1e56, 0x1e56), (0x1e58, 0x1e58), (0x1e5a, 0x1e5a), (0x1e5c, 0x1e5c),
    (0x1e5e, 0x1e5e), (0x1e60, 0x1e60), (0x1e62, 0x1e62), (0x1e64, 0x1e64), (0x1e66, 0x1e66), (0x1e68, 0x1e68),
    (0x1e6a, 0x1e6a), (0x1e6c, 0x1e6c), (0x1e6e, 0x1e6e), (0x1e70, 0x1e70), (0x1e72, 0x1e72), (0x1e74, 0x1e74),
    (0x1e76, 0x1e76), (0x1e78, 0x1e78), (0x1e7a, 0x1e7a), (0x1e7c, 0x1e7c), (0x1e7e, 0x1e7e), (0x1e80, 0x1e80),
    (0x1e82, 0x1e82), (0x1e84, 0x1e84), (0x1e86, 0x1e86), (0x1e88, 0x1e88), (0x1e8a, 0x1e8a), (0x1e8c, 0x1e8c),
    (0x1e8e, 0x1e8e), (0x1e90, 0x1e90), (0x1e92, 0x1e92), (0x1e94, 0x1e94), (0x1e9e, 0x1e9e), (0x1ea0, 0x1ea0),
    (0x1ea2, 0x1ea2), (0x1ea4, 0x1ea4), (0x1ea6, 0x1ea6), (0x1ea8, 0x1ea8), (0x1eaa, 0x1eaa), (0x1eac, 0x1eac),
    (0x1eae, 0x1eae), (0x1eb0, 0x1eb0), (0x1eb2, 0x1eb2), (0x1eb4, 0x1eb4), (0x1eb6, 0x1eb6), (0x1eb8, 0x1eb8),
    (0x1eba, 0x1eba), (0x1ebc, 0x1ebc), (0x1ebe, 0x1ebe), (0x1ec0, 0x1ec0), (0x1ec2, 0x1ec2), (0x1ec4, 0x1ec4),
    (0x1ec6, 0x1ec6), (0x1ec8, 0x1ec8), (0x1eca, 0x1eca), (0x1ecc, 0x1ecc), (0x1ece, 0x1ece), (0x1ed0, 0x1ed0),
    (0x1ed2, 0x1ed2), (0x1ed4, 0x1ed4), (0x1ed6, 0x1ed6), (0x1ed8, 0x1ed8), (0x1eda, 0x1eda), (0x1edc, 0x1edc),
    (0x1ede, 0x1ede), (0x1ee0, 0x1ee0), (0x1ee2, 0x1ee2), (0x1ee4, 0x1ee4), (0x1ee6, 0x1ee6), (0x1ee8, 0x1ee8),
    (0x1eea, 0x1eea), (0x1eec, 0x1eec), (0x1eee, 0x1eee), (0x1ef0, 0x1ef0), (0x1ef2, 0x1ef2), (0x1ef4, 0x1ef4),
    (0x1ef6, 0x1ef6), (0x1ef8, 0x1ef8), (0x1efa, 0x1efa), (0x1efc, 0x1efc), (0x1efe, 0x1efe), (0x1f08, 0x1f0f),
    (0x1f18, 0x1f1d), (0x1f28, 0x1f2f), (0x1f38, 0x1f3f), (0x1f48, 0x1f4d), (0x1f59, 0x1f59), (0x1f5b, 0x1f5b),
    (0x1f5d, 0x1f5d), (0x1f5f, 0x1f5f), (0x1f68, 0x1f6f), (0x1fb8, 0x1fbb), (0x1fc8, 0x1fcb), (0x1fd8, 0x1fdb),
    (0x1fe8, 0x1fec), (0x1ff8, 0x1ffb), (0x2102, 0x2102), (0x2107, 0x2107), (0x210b, 0x210d), (0x2110, 0x2112),
    (0x2115, 0x2115), (0x2119, 0x211d), (0x2124, 0x2124), (0x2126, 0x2126), (0x2128, 0x2128), (0x212a, 0x212d),
    (0x2130, 0x2133), (0x213e, 0x213e), (0x213f, 0x213f), (0x2145, 0x2145), (0x2183, 0x2183), (0x2c00, 0x2c2f),
    (0x2c60, 0x2c60), (0x2c62, 0x2c64), (0x2c67, 0x2c67), (0x2c69, 0x2c69), (0x2c6b, 0x2c6b), (0x2c6d, 0x2c70),
    (0x2c72, 0x2c72), (0x2c75, 0x2c75), (0x2c7e, 0x2c80), (0x2c82, 0x2c82), (0x2c84, 0x2c84), (0x2c86, 0x2c86),
    (0x2c88, 0x2c88), (0x2c8a, 0x2c8a), (0x2c8c, 0x2c8c), (0x2c8e, 0x2c8e), (0x2c90, 0x2c90), (0x2c92, 0x2c92),
    (0x2c94, 0x2c94), (0x2c96, 0x2c96), (0x2c98, 0x2c98), (0x2c9a, 0x2c9a), (0x2c9c, 0x2c9c), (0x2c9e, 0x2c9e),
    (0x2ca0, 0x2ca0), (0x2ca2, 0x2ca2), (0x2ca4, 0x2ca4), (0x2ca6, 0x2ca6), (0x2ca8, 0x2ca8), (0x2caa, 0x2caa),
    (0x2cac, 0x2cac), (0x2cae, 0x2cae), (0x2cb0, 0x2cb0), (0x2cb2, 0x2cb2), (0x2cb4, 0x2cb4), (0x2cb6, 0x2cb6),
    (0x2cb8, 0x2cb8), (0x2cba, 0x2cba), (0x2cbc, 0x2cbc), (0x2cbe, 0x2cbe), (0x2cc0, 0x2cc0), (0x2cc2, 0x2cc2),
    (0x2cc4, 0x2cc4), (0x2cc6, 0x2cc6), (0x2cc8, 0x2cc8), (0x2cca, 0x2cca), (0x2ccc, 0x2ccc), (0x2cce, 0x2cce),
    (0x2cd0, 0x2cd0), (0x2cd2, 0x2cd2), (0x2cd4, 0x2cd4), (0x2cd6, 0x2cd6), (0x2cd8, 0x2cd8), (0x2cda, 0x2cda),
    (0x2cdc, 0x2cdc), (0x2cde, 0x2cde), (0x2ce0, 0x2ce0), (0x2ce2, 0x2ce2), (0x2ceb, 0x2ceb), (0x2ced, 0x2ced),
    (0x2cf2, 0x2cf2), (0xa640, 0xa640), (0xa642, 0xa642), (0xa644, 0xa644), (0xa646, 0xa646), (0xa648, 0xa648),
    (0xa64a, 0xa64a), (0xa64c, 0xa64c), (0xa64e, 0xa64e), (0xa650, 0xa650), (0xa652, 0xa652), (0xa654, 0xa654),
    (0xa656, 0xa656), (0xa658, 0xa658), (0xa65a, 0xa65a), (0xa65c, 0xa65c), (0xa65e, 0xa65e), (0xa660, 0xa660),
    (0xa662, 0xa662), (0xa664, 0xa664), (0xa666, 0xa666), (0xa668, 0xa668), (0xa66a, 0xa66a), (0xa66c, 0xa66c),
    (0xa680, 0xa680), (0xa682, 0xa682), (0xa684, 0xa684), (0xa686, 0xa686), (0xa688, 0xa688), (0xa68a, 0xa68a),
    (0xa68c, 0xa68c), (0xa68e, 0xa68e), (0xa690, 0xa690), (0xa692, 0xa692), (0xa694, 0xa694), (0xa696, 0xa696),
    (0xa698, 0xa698), (0xa69a, 0xa69a), (0xa722, 0xa722), (0xa724, 0xa724), (0xa726, 0xa726), (0xa728, 0xa728),
    (0xa72a, 0xa72a), (0xa72c, 0xa72c), (0xa72e, 0xa72e), (0xa732, 0xa732), (0xa734, 0xa734), (0xa736, 0xa736),
    (0xa738, 0xa738), (0xa73a, 0xa73a), (0xa73c, 0xa73c), (0xa73e, 0xa73e), (0xa740, 0xa740), (0xa742, 0xa742),
    (0xa744, 0xa744), (0xa746, 0xa746), (0xa748, 0xa748), (0xa74a, 0xa74a), (0xa74c, 0xa74c), (0xa74e, 0xa74e),
    (0xa750, 0xa750), (0xa752, 0xa752), (0xa754, 0xa754), (0xa756, 0xa756), (0xa758, 0xa758), (0xa75a, 0xa75a),
    (0xa75c, 0xa75c), (0xa75e, 0xa75e), (0xa760, 0xa760), (0xa762, 0xa762), (0xa764, 0xa764), (0xa766, 0xa766),
    (0xa768, 0xa768), (0xa76a, 0xa76a), (0xa76c, 0xa76c), (0xa76e, 0xa76e), (0xa779, 0xa779), (0xa77b, 0xa77b),
    (0xa77d, 0xa77d), (0xa77e, 0xa77e), (0xa780, 0xa780), (0xa782, 0xa782), (0xa784, 0xa784), (0xa786, 0xa786),
    (0xa78b, 0xa78b), (0xa78d, 0xa78d), (0xa790, 0xa790), (0xa792, 0xa792), (0xa796, 0xa796), (0xa798, 0xa798),
    (0xa79a, 0xa79a), (0xa79c, 0xa79c), (0xa79e, 0xa79e), (0xa7a0, 0xa7a0), (0xa7a2, 0xa7a2), (0xa7a4, 0xa7a4),
    (0xa7a6, 0xa7a6), (0xa7a8, 0xa7a8), (0xa7aa, 0xa7ae), (0xa7b0, 0xa7b4), (0xa7b6, 0xa7b6), (0xa7b8, 0xa7b8),
    (0xa7ba, 0xa7ba), (0xa7bc, 0xa7bc), (0xa7be, 0xa7be), (0xa7c0, 0xa7c0), (0xa7c2, 0xa7c2), (0xa7c4, 0xa7c7),
    (0xa7c9, 0xa7c9), (0xa7cb, 0xa7cb), (0xa7cc, 0xa7cc), (0xa7ce, 0xa7ce), (0xa7d0, 0xa7d0), (0xa7d2, 0xa7d2),
    (0xa7d4, 0xa7d4), (0xa7d6, 0xa7d6), (0xa7d8, 0xa7d8), (0xa7da, 0xa7da), (0xa7dc, 0xa7dc), (0xa7f5, 0xa7f5),
    (0xff21, 0xff3a), (0x10400, 0x10427), (0x104b0, 0x104d3), (0x10570, 0x1057a), (0x1057c, 0x1058a),
    (0x1058c, 0x10592), (0x10594, 0x10594), (0x10595, 0x10595), (0x10c80, 0x10cb2), (0x10d50, 0x10d65),
    (0x118a0, 0x118bf), (0x16e40, 0x16e5f), (0x16ea0, 0x16eb8), (0x1d400, 0x1d419), (0x1d434, 0x1d44d),
    (0x1d468, 0x1d481), (0x1d49c, 0x1d49c), (0x1d49e, 0x1d49e), (0x1d49f, 0x1d49f), (0x1d4a2, 0x1d4a2),
    (0x1d4a5, 0x1d4a5), (0x1d4a6, 0x1d4a6), (0x1d4a9, 0x1d4ac), (0x1d4ae, 0x1d4b5), (0x1d4d0, 0x1d4e9),
    (0x1d504, 0x1d504), (0x1d505, 0x1d505), (0x1d507, 0x1d50a), (0x1d50d, 0x1d514), (0x1d516, 0x1d51c),
    (0x1d538, 0x1d538), (0x1d539, 0x1d539), (0x1d53b, 0x1d53e), (0x1d540, 0x1d544), (0x1d546, 0x1d546),
    (0x1d54a, 0x1d550), (0x1d56c, 0x1d585), (0x1d5a0, 0x1d5b9), (0x1d5d4, 0x1d5ed), (0x1d608, 0x1d621),
    (0x1d63c, 0x1d655), (0x1d670, 0x1d689), (0x1d6a8, 0x1d6c0), (0x1d6e2, 0x1d6fa), (0x1d71c, 0x1d734),
    (0x1d756, 0x1d76e), (0x1d790, 0x1d7a8), (0x1d7ca, 0x1d7ca), (0x1e900, 0x1e921)]

/-- parser/tokeniser/unicode.hpp:400-440. -/
def pMc : PropText :=
  .ranges false [(0x903, 0x903), (0x93b, 0x93b), (0x93e, 0x940), (0x949, 0x94c), (0x94e, 0x94e), (0x94f, 0x94f),
    (0x982, 0x982), (0x983, 0x983), (0x9be, 0x9c0), (0x9c7, 0x9c7), (0x9c8, 0x9c8), (0x9cb, 0x9cb), (0x9cc, 0x9cc),
    (0x9d7, 0x9d7), (0xa03, 0xa03), (0xa3e, 0xa40), (0xa83, 0xa83), (0xabe, 0xac0), (0xac9, 0xac9), (0xacb, 0xacb),
    (0xacc, 0xacc), (0xb02, 0xb02), (0xb03, 0xb03), (0xb3e, 0xb3e), (0xb40, 0xb40), (0xb47, 0xb47), (0xb48, 0xb48),
    (0xb4b, 0xb4b), (0xb4c, 0xb4c), (0xb57, 0xb57), (0xbbe, 0xbbe), (0xbbf, 0xbbf), (0xbc1, 0xbc1), (0xbc2, 0xbc2),
    (0xbc6, 0xbc8), (0xbca, 0xbcc), (0xbd7, 0xbd7), (0xc01, 0xc03), (0xc41, 0xc44), (0xc82, 0xc82), (0xc83, 0xc83),
    (0xcbe, 0xcbe), (0xcc0, 0xcc4), (0xcc7, 0xcc7), (0xcc8, 0xcc8), (0xcca, 0xcca), (0xccb, 0xccb), (0xcd5, 0xcd5),
    (0xcd6, 0xcd6), (0xcf3, 0xcf3), (0xd02, 0xd02), (0xd03, 0xd03), (0xd3e, 0xd40), (0xd46, 0xd48), (0xd4a, 0xd4c),
    (0xd57, 0xd57), (0xd82, 0xd82), (0xd83, 0xd83), (0xdcf, 0xdd1), (0xdd8, 0xddf), (0xdf2, 0xdf2), (0xdf3, 0xdf3),
    (0xf3e, 0xf3e), (0xf3f, 0xf3f), (0xf7f, 0xf7f), (0x102b, 0x102b), (0x102c, 0x102c), (0x1031, 0x1031),
    (0x1038, 0x1038), (0x103b, 0x103b), (0x103c, 0x103c), (0x1056, 0x1056), (0x1057, 0x1057), (0x1062, 0x1064),
    (0x1067, 0x106d), (0x1083, 0x1083), (0x1084, 0x1084), (0x1087, 0x108c), (0x108f, 0x108f), (0x109a, 0x109c),
    (0x1715, 0x1715), (0x1734, 0x1734), (0x17b6, 0x17b6), (0x17be, 0x17c5), (0x17c7, 0x17c7), (0x17c8, 0x17c8),
    (0x1923, 0x1926), (0x1929, 0x192b), (0x1930, 0x1930), (0x1931, 0x1931), (0x1933, 0x1938), (0x1a19, 0x1a19),
    (0x1a1a, 0x1a1a), (0x1a55, 0x1a55), (0x1a57, 0x1a57), (0x1a61, 0x1a61), (0x1a63, 0x1a63), (0x1a64, 0x1a64),
    (0x1a6d, 0x1a72), (0x1b04, 0x1b04), (0x1b35, 0x1b35), (0x1b3b, 0x1b3b), (0x1b3d, 0x1b41), (0x1b43, 0x1b43),
    (0x1b44, 0x1b44), (0x1b82, 0x1b82), (0x1ba1, 0x1ba1), (0x1ba6, 0x1ba6), (0x1ba7, 0x1ba7), (0x1baa, 0x1baa),
    (0x1be7, 0x1be7), (0x1bea, 0x1bec), (0x1bee, 0x1bee), (0x1bf2, 0x1bf2), (0x1bf3, 0x1bf3), (0x1c24, 0x1c2b),
    (0x1c34, 0x1c34), (0x1c35, 0x1c35), (0x1ce1, 0x1ce1), (0x1cf7, 0x1cf7), (0x302e, 0x302e), (0x302f, 0x302f),
    (0xa823, 0xa823), (0xa824, 0xa824), (0xa827, 0xa827), (0xa880, 0xa880), (0xa881, 0xa881), (0xa8b4, 0xa8c3),
    (0xa952, 0xa952), (0xa953, 0xa953), (0xa983, 0xa983), (0xa9b4, 0xa9b4), (0xa9b5, 0xa9b5), (0xa9ba, 0xa9ba),
    (0xa9bb, 0xa9bb), (0xa9be, 0xa9c0), (0xaa2f, 0xaa2f), (0xaa30, 0xaa30), (0xaa33, 0xaa33), (0xaa34, 0xaa34),
    (0xaa4d, 0xaa4d), (0xaa7b, 0xaa7b), (0xaa7d, 0xaa7d), (0xaaeb, 0xaaeb), (0xaaee, 0xaaee), (0xaaef, 0xaaef),
    (0xaaf5, 0xaaf5), (0xabe3, 0xabe3), (0xabe4, 0xabe4), (0xabe6, 0xabe6), (0xabe7, 0xabe7), (0xabe9, 0xabe9),
    (0xabea, 0xabea), (0xabec, 0xabec), (0x11000, 0x11000), (0x11002, 0x11002), (0x11082, 0x11082),
    (0x110b0, 0x110b2), (0x110b7, 0x110b7), (0x110b8, 0x110b8), (0x1112c, 0x1112c), (0x11145, 0x11145),
    (0x11146, 0x11146), (0x11182, 0x11182), (0x111b3, 0x111b5), (0x111bf, 0x111bf), (0x111c0, 0x111c0),
    (0x111ce, 0x111ce), (0x1122c, 0x1122e), (0x11232, 0x11232), (0x11233, 0x11233), (0x11235, 0x11235),
    (0x112e0, 0x112e2), (0x11302, 0x11302), (0x11303, 0x11303), (0x1133e, 0x1133e), (0x1133f, 0x1133f),
    (0x11341, 0x11344), (0x11347, 0x11347), (0x11348, 0x11348), (0x1134b, 0x1134d), (0x11357, 0x11357),
    (0x11362, 0x11362), (0x11363, 0x11363), (0x113b8, 0x113ba), (0x113c2, 0x113c2), (0x113c5, 0x113c5),
    (0x113c7, 0x113ca), (0x113cc, 0x113cc), (0x113cd, 0x113cd), (0x113cf, 0x113cf), (0x11435, 0x11437),
    (0x11440, 0x11440), (0x11441, 0x11441), (0x11445, 0x11445), (0x114b0, 0x114b2), (0x114b9, 0x114b9),
    (0x114bb, 0x114be), (0x114c1, 0x114c1), (0x115af, 0x115b1), (0x115b8, 0x115bb), (0x115be, 0x115be),
    (0x11630, 0x11632), (0x1163b, 0x1163b), (0x1163c, 0x1163c), (0x1163e, 0x1163e), (0x116ac, 0x116ac),
    (0x116ae, 0x116ae), (0x116af, 0x116af), (0x116b6, 0x116b6), (0x1171e, 0x1171e), (0x11720, 0x11720),
    (0x11721, 0x11721), (0x11726, 0x11726), (0x1182c, 0x1182e), (0x11838, 0x11838), (0x11930, 0x11935),
    (0x11937, 0x11937), (0x11938, 0x11938), (0x1193d, 0x1193d), (0x11940, 0x11940), (0x11942, 0x11942),
    (0x119d1, 0x119d3), (0x119dc, 0x119df), (0x119e4, 0x119e4), (0x11a39, 0x11a39), (0x11a57, 0x11a57),
    (0x11a58, 0x11a58), (0x11a97, 0x11a97), (0x11b61, 0x11b61), (0x11b65, 0x11b65), (0x11b67, 0x11b67),
    (0x11c2f, 0x11c2f), (0x11c3e, 0x11c3e), (0x11ca9, 0x11ca9), (0x11cb1, 0x11cb1), (0x11cb4, 0x11cb4),
    (0x11d8a, 0x11d8e), (0x11d93, 0x11d93), (0x11d94, 0x11d94), (0x11d96, 0x11d96), (0x11ef5, 0x11ef5),
    (0x11ef6, 0x11ef6), (0x11f03, 0x11f03), (0x11f34, 0x11f34), (0x11f35, 0x11f35), (0x11f3e, 0x11f3e),
    (0x11f3f, 0x11f3f), (0x11f41, 0x11f41), (0x1612a, 0x1612c), (0x16f51, 0x16f87), (0x16ff0, 0x16ff0),
    (0x16ff1, 0x16ff1), (0x1d165, 0x1d165), (0x1d166, 0x1d166), (0x1d16d, 0x1d172)]

/-- parser/tokeniser/unicode.hpp:442-446. -/
def pMe : PropText :=
  .ranges false [(0x488, 0x488), (0x489, 0x489), (0x1abe, 0x1abe), (0x20dd, 0x20e0), (0x20e2, 0x20e4),
    (0xa670, 0xa672)]

/-- parser/tokeniser/unicode.hpp:448-526. -/
def pMn : PropText :=
  .ranges false [(0x300, 0x36f), (0x483, 0x487), (0x591, 0x5bd), (0x5bf, 0x5bf), (0x5c1, 0x5c1), (0x5c2, 0x5c2),
    (0x5c4, 0x5c4), (0x5c5, 0x5c5), (0x5c7, 0x5c7), (0x610, 0x61a), (0x64b, 0x65f), (0x670, 0x670), (0x6d6, 0x6dc),
    (0x6df, 0x6e4), (0x6e7, 0x6e7), (0x6e8, 0x6e8), (0x6ea, 0x6ed), (0x711, 0x711), (0x730, 0x74a), (0x7a6, 0x7b0),
    (0x7eb, 0x7f3), (0x7fd, 0x7fd), (0x816, 0x819), (0x81b, 0x823), (0x825, 0x827), (0x829, 0x82d), (0x859, 0x85b),
    (0x897, 0x89f), (0x8ca, 0x8e1), (0x8e3, 0x902), (0x93a, 0x93a), (0x93c, 0x93c), (0x941, 0x948), (0x94d, 0x94d),
    (0x951, 0x957), (0x962, 0x962), (0x963, 0x963), (0x981, 0x981), (0x9bc, 0x9bc), (0x9c1, 0x9c4), (0x9cd, 0x9cd),
    (0x9e2, 0x9e2), (0x9e3, 0x9e3), (0x9fe, 0x9fe), (0xa01, 0xa01), (0xa02, 0xa02), (0xa3c, 0xa3c), (0xa41, 0xa41),
    (0xa42, 0xa42), (0xa47, 0xa47), (0xa48, 0xa48), (0xa4b, 0xa4d), (0xa51, 0xa51), (0xa70, 0xa70), (0xa71, 0xa71),
    (0xa75, 0xa75), (0xa81, 0xa81), (0xa82, 0xa82), (0xabc, 0xabc), (0xac1, 0xac5), (0xac7, 0xac7), (0xac8, 0xac8),
    (0xacd, 0xacd), (0xae2, 0xae2), (0xae3, 0xae3), (0xafa, 0xaff), (0xb01, 0xb01), (0xb3c, 0xb3c), (0xb3f, 0xb3f),
    (0xb41, 0xb44), (0xb4d, 0xb4d), (0xb55, 0xb55), (0xb56, 0xb56), (0xb62, 0xb62), (0xb63, 0xb63), (0xb82, 0xb82),
    (0xbc0, 0xbc0), (0xbcd, 0xbcd), (0xc00, 0xc00), (0xc04, 0xc04), (0xc3c, 0xc3c), (0xc3e, 0xc40), (0xc46, 0xc48),
    (0xc4a, 0xc4d), (0xc55, 0xc55), (0xc56, 0xc56), (0xc62, 0xc62), (0xc63, 0xc63), (0xc81, 0xc81), (0xcbc, 0xcbc),
    (0xcbf, 0xcbf), (0xcc6, 0xcc6), (0xccc, 0xccc), (0xccd, 0xccd), (0xce2, 0xce2), (0xce3, 0xce3), (0xd00, 0xd00),
    (0xd01, 0xd01), (0xd3b, 0xd3b), (0xd3c, 0xd3c), (0xd41, 0xd44), (0xd4d, 0xd4d), (0xd62, 0xd62), (0xd63, 0xd63),
    (0xd81, 0xd81), (0xdca, 0xdca), (0xdd2, 0xdd4), (0xdd6, 0xdd6), (0xe31, 0xe31), (0xe34, 0xe3a), (0xe47, 0xe4e),
    (0xeb1, 0xeb1), (0xeb4, 0xebc), (0xec8, 0xece), (0xf18, 0xf18), (0xf19, 0xf19), (0xf35, 0xf35), (0xf37, 0xf37),
    (0xf39, 0xf39), (0xf71, 0xf7e), (0xf80, 0xf84), (0xf86, 0xf86), (0xf87, 0xf87), (0xf8d, 0xf97), (0xf99, 0xfbc),
    (0xfc6, 0xfc6), (0x102d, 0x1030), (0x1032, 0x1037), (0x1039, 0x1039), (0x103a, 0x103a), (0x103d, 0x103d),
    (0x103e, 0x103e), (0x1058, 0x1058), (0x1059, 0x1059), (0x105e, 0x1060), (0x1071, 0x1074), (0x1082, 0x1082),
    (0x1085, 0x1085), (0x1086, 0x1086), (0x108d, 0x108d), (0x109d, 0x109d), (0x135d, 0x135f), (0x1712, 0x1714),
    (0x1732, 0x1732), (0x1733, 0x1733), (0x1752, 0x1752), (0x1753, 0x1753), (0x1772, 0x1772), (0x1773, 0x1773),
    (0x17b4, 0x17b4), (0x17b5, 0x17b5), (0x17b7, 0x17bd), (0x17c6, 0x17c6), (0x17c9, 0x17d3), (0x17dd, 0x17dd),
    (0x180b, 0x180d), (0x180f, 0x180f), (0x1885, 0x1885), (0x1886, 0x1886), (0x18a9, 0x18a9), (0x1920, 0x1922),
    (0x1927, 0x1927), (0x1928, 0x1928), (0x1932, 0x1932), (0x1939, 0x193b), (0x1a17, 0x1a17), (0x1a18, 0x1a18),
    (0x1a1b, 0x1a1b), (0x1a56, 0x1a56), (0x1a58, 0x1a5e), (0x1a60, 0x1a60), (0x1a62, 0x1a62), (0x1a65, 0x1a6c),
    (0x1a73, 0x1a7c), (0x1a7f, 0x1a7f), (0x1ab0, 0x1abd), (0x1abf, 0x1add), (0x1ae0, 0x1aeb), (0x1b00, 0x1b03),
    (0x1b34, 0x1b34), (0x1b36, 0x1b3a), (0x1b3c, 0x1b3c), (0x1b42, 0x1b42), (0x1b6b, 0x1b73), (0x1b80, 0x1b80),
    (0x1b81, 0x1b81), (0x1ba2, 0x1ba5), (0x1ba8, 0x1ba8), (0x1ba9, 0x1ba9), (0x1bab, 0x1bad), (0x1be6, 0x1be6),
    (0x1be8, 0x1be8), (0x1be9, 0x1be9), (0x1bed, 0x1bed), (0x1bef, 0x1bf1), (0x1c2c, 0x1c33), (0x1c36, 0x1c36),
    (0x1c37, 0x1c37), (0x1cd0, 0x1cd2), (0x1cd4, 0x1ce0), (0x1ce2, 0x1ce8), (0x1ced, 0x1ced), (0x1cf4, 0x1cf4),
    (0x1cf8, 0x1cf8), (0x1cf9, 0x1cf9), (0x1dc0, 0x1dff), (0x20d0, 0x20dc), (0x20e1, 0x20e1), (0x20e5, 0x20f0),
    (0x2cef, 0x2cf1), (0x2d7f, 0x2d7f), (0x2de0, 0x2dff), (0x302a, 0x302d), (0x3099, 0x3099), (0x309a, 0x309a),
    (0xa66f, 0xa66f), (0xa674, 0xa67d), (0xa69e, 0xa69e), (0xa69f, 0xa69f), (0xa6f0, 0xa6f0), (0xa6f1, 0xa6f1),
    (0xa802, 0xa802), (0xa806, 0xa806), (0xa80b, 0xa80b), (0xa825, 0xa825), (0xa826, 0xa826), (0xa82c, 0xa82c),
    (0xa8c4, 0xa8c4), (0xa8c5, 0xa8c5), (0xa8e0, 0xa8f1), (0xa8ff, 0xa8ff), (0xa926, 0xa92d), (0xa947, 0xa951),
    (0xa980, 0xa982), (0xa9b3, 0xa9b3), (0xa9b6, 0xa9b9), (0xa9bc, 0xa9bc), (0xa9bd, 0xa9bd), (0xa9e5, 0xa9e5),
    (0xaa29, 0xaa2e), (0xaa31, 0xaa31), (0xaa32, 0xaa32), (0xaa35, 0xaa35), (0xaa36, 0xaa36), (0xaa43, 0xaa43),
    (0xaa4c, 0xaa4c), (0xaa7c, 0xaa7c), (0xaab0, 0xaab0), (0xaab2, 0xaab4), (0xaab7, 0xaab7), (0xaab8, 0xaab8),
    (0xaabe, 0xaabe), (0xaabf, 0xaabf), (0xaac1, 0xaac1), (0xaaec, 0xaaec), (0xaaed, 0xaaed), (0xaaf6, 0xaaf6),
    (0xabe5, 0xabe5), (0xabe8, 0xabe8), (0xabed, 0xabed), (0xfb1e, 0xfb1e), (0xfe00, 0xfe0f), (0xfe20, 0xfe2f),
    (0x101fd, 0x101fd), (0x102e0, 0x102e0), (0x10376, 0x1037a), (0x10a01, 0x10a03), (0x10a05, 0x10a05),
    (0x10a06, 0x10a06), (0x10a0c, 0x10a0f), (0x10a38, 0x10a3a), (0x10a3f, 0x10a3f), (0x10ae5, 0x10ae5),
    (0x10ae6, 0x10ae6), (0x10d24, 0x10d27), (0x10d69, 0x10d6d), (0x10eab, 0x10eab), (0x10eac, 0x10eac),
    (0x10efa, 0x10eff), (0x10f46, 0x10f50), (0x10f82, 0x10f85), (0x11001, 0x11001), (0x11038, 0x11046),
    (0x11070, 0x11070), (0x11073, 0x11073), (0x11074, 0x11074), (0x1107f, 0x11081), (0x110b3, 0x110b6),
    (0x110b9, 0x110b9), (0x110ba, 0x110ba), (0x110c2, 0x110c2), (0x11100, 0x11102), (0x11127, 0x1112b),
    (0x1112d, 0x11134), (0x11173, 0x11173), (0x11180, 0x11180), (0x11181, 0x11181), (0x111b6, 0x111be),
    (0x111c9, 0x111cc), (0x111cf, 0x111cf), (0x1122f, 0x11231), (0x11234, 0x11234), (0x11236, 0x11236),
    (0x11237, 0x11237), (0x1123e, 0x1123e), (0x11241, 0x11241), (0x112df, 0x112df), (0x112e3, 0x112ea),
    (0x11300, 0x11300), (0x11301, 0x11301), (0x1133b, 0x1133b), (0x1133c, 0x1133c), (0x11340, 0x11340),
    (0x11366, 0x1136c), (0x11370, 0x11374), (0x113bb, 0x113c0), (0x113ce, 0x113ce), (0x113d0, 0x113d0),
    (0x113d2, 0x113d2), (0x113e1, 0x113e1), (0x113e2, 0x113e2), (0x11438, 0x1143f), (0x11442, 0x11444),
    (0x11446, 0x11446), (0x1145e, 0x1145e), (0x114b3, 0x114b8), (0x114ba, 0x114ba), (0x114bf, 0x114bf),
    (0x114c0, 0x114c0), (0x114c2, 0x114c2), (0x114c3, 0x114c3), (0x115b2, 0x115b5), (0x115bc, 0x115bc),
    (0x115bd, 0x115bd), (0x115bf, 0x115bf), (0x115c0, 0x115c0), (0x115dc, 0x115dc), (0x115dd, 0x115dd),
    (0x11633, 0x1163a), (0x1163d, 0x1163d), (0x1163f, 0x1163f), (0x11640, 0x11640), (0x116ab, 0x116ab),
    (0x116ad, 0x116ad), (0x116b0, 0x116b5), (0x116b7, 0x116b7), (0x1171d, 0x1171d), (0x1171f, 0x1171f),
    (0x11722, 0x11725), (0x11727, 0x1172b), (0x1182f, 0x11837), (0x11839, 0x11839), (0x1183a, 0x1183a),
    (0x1193b, 0x1193b), (0x1193c, 0x1193c), (0x1193e, 0x1193e), (0x11943, 0x11943), (0x119d4, 0x119d7),
    (0x119da, 0x119da), (0x119db, 0x119db), (0x119e0, 0x119e0), (0x11a01, 0x11a0a), (0x11a33, 0x11a38),
    (0x11a3b, 0x11a3e), (0x11a47, 0x11a47), (0x11a51, 0x11a56), (0x11a59, 0x11a5b), (0x11a8a, 0x11a96),
    (0x11a98, 0x11a98), (0x11a99, 0x11a99), (0x11b60, 0x11b60), (0x11b62, 0x11b64), (0x11b66, 0x11b66),
    (0x11c30, 0x11c36), (0x11c38, 0x11c3d), (0x11c3f, 0x11c3f), (0x11c92, 0x11ca7), (0x11caa, 0x11cb0),
    (0x11cb2, 0x11cb2), (0x11cb3, 0x11cb3), (0x11cb5, 0x11cb5), (0x11cb6, 0x11cb6), (0x11d31, 0x11d36),
    (0x11d3a, 0x11d3a), (0x11d3c, 0x11d3c), (0x11d3d, 0x11d3d), (0x11d3f, 0x11d45), (0x11d47, 0x11d47),
    (0x11d90, 0x11d90), (0x11d91, 0x11d91), (0x11d95, 0x11d95), (0x11d97, 0x11d97), (0x11ef3, 0x11ef3),
    (0x11ef4, 0x11ef4), (0x11f00, 0x11f00), (0x11f01, 0x11f01), (0x11f36, 0x11f3a), (0x11f40, 0x11f40),
    (0x11f42, 0x11f42), (0x11f5a, 0x11f5a), (0x13440, 0x13440), (0x13447, 0x13455), (0x1611e, 0x16129),
    (0x1612d, 0x1612f), (0x16af0, 0x16af4), (0x16b30, 0x16b36), (0x16f4f, 0x16f4f), (0x16f8f, 0x16f92),
    (0x16fe4, 0x16fe4), (0x1bc9d, 0x1bc9d), (0x1bc9e, 0x1bc9e), (0x1cf00, 0x1cf2d), (0x1cf30, 0x1cf46),
    (0x1d167, 0x1d169), (0x1d17b, 0x1d182), (0x1d185, 0x1d18b), (0x1d1aa, 0x1d1ad), (0x1d242, 0x1d244),
    (0x1da00, 0x1da36), (0x1da3b, 0x1da6c), (0x1da75, 0x1da75), (0x1da84, 0x1da84), (0x1da9b, 0x1da9f),
    (0x1daa1, 0x1daaf), (0x1e000, 0x1e006), (0x1e008, 0x1e018), (0x1e01b, 0x1e021), (0x1e023, 0x1e023),
    (0x1e024, 0x1e024), (0x1e026, 0x1e02a), (0x1e08f, 0x1e08f), (0x1e130, 0x1e136), (0x1e2ae, 0x1e2ae),
    (0x1e2ec, 0x1e2ef), (0x1e4ec, 0x1e4ef), (0x1e5ee, 0x1e5ee), (0x1e5ef, 0x1e5ef), (0x1e6e3, 0x1e6e3),
    (0x1e6e6, 0x1e6e6), (0x1e6ee, 0x1e6ee), (0x1e6ef, 0x1e6ef), (0x1e6f5, 0x1e6f5), (0x1e8d0, 0x1e8d6),
    (0x1e944, 0x1e94a), (0xe0100, 0xe01ef)]

/-- parser/tokeniser/unicode.hpp:528-551. -/
def pNd : PropText :=
  .ranges false [(0x30, 0x39), (0x660, 0x669), (0x6f0, 0x6f9), (0x7c0, 0x7c9), (0x966, 0x96f), (0x9e6, 0x9ef),
    (0xa66, 0xa6f), (0xae6, 0xaef), (0xb66, 0xb6f), (0xbe6, 0xbef), (0xc66, 0xc6f), (0xce6, 0xcef), (0xd66, 0xd6f),
    (0xde6, 0xdef), (0xe50, 0xe59), (0xed0, 0xed9), (0xf20, 0xf29), (0x1040, 0x1049), (0x1090, 0x1099),
    (0x17e0, 0x17e9), (0x1810, 0x1819), (0x1946, 0x194f), (0x19d0, 0x19d9), (0x1a80, 0x1a89), (0x1a90, 0x1a99),
    (0x1b50, 0x1b59), (0x1bb0, 0x1bb9), (0x1c40, 0x1c49), (0x1c50, 0x1c59), (0xa620, 0xa629), (0xa8d0, 0xa8d9),
    (0xa900, 0xa909), (0xa9d0, 0xa9d9), (0xa9f0, 0xa9f9), (0xaa50, 0xaa59), (0xabf0, 0xabf9), (0xff10, 0xff19),
    (0x104a0, 0x104a9), (0x10d30, 0x10d39), (0x10d40, 0x10d49), (0x11066, 0x1106f), (0x110f0, 0x110f9),
    (0x11136, 0x1113f), (0x111d0, 0x111d9), (0x112f0, 0x112f9), (0x11450, 0x11459), (0x114d0, 0x114d9),
    (0x11650, 0x11659), (0x116c0, 0x116c9), (0x116d0, 0x116e3), (0x11730, 0x11739), (0x118e0, 0x118e9),
    (0x11950, 0x11959), (0x11bf0, 0x11bf9), (0x11c50, 0x11c59), (0x11d50, 0x11d59), (0x11da0, 0x11da9),
    (0x11de0, 0x11de9), (0x11f50, 0x11f59), (0x16130, 0x16139), (0x16a60, 0x16a69), (0x16ac0, 0x16ac9),
    (0x16b50, 0x16b59), (0x16d70, 0x16d79), (0x1ccf0, 0x1ccf9), (0x1d7ce, 0x1d7ff), (0x1e140, 0x1e149),
    (0x1e2f0, 0x1e2f9), (0x1e4f0, 0x1e4f9), (0x1e5f1, 0x1e5fa), (0x1e950, 0x1e959), (0x1fbf0, 0x1fbf9)]

/-- parser/tokeniser/unicode.hpp:553-559. -/
def pNl : PropText :=
  .ranges false [(0x16ee, 0x16f0), (0x2160, 0x2182), (0x2185, 0x2188), (0x3007, 0x3007), (0x3021, 0x3029),
    (0x3038, 0x303a), (0xa6e6, 0xa6ef), (0x10140, 0x10174), (0x10341, 0x10341), (0x1034a, 0x1034a),
    (0x103d1, 0x103d5), (0x12400, 0x1246e), (0x16ff4, 0x16ff6)]

/-- parser/tokeniser/unicode.hpp:561-584. -/
def pNo : PropText :=
  .ranges false [(0xb2, 0xb2), (0xb3, 0xb3), (0xb9, 0xb9), (0xbc, 0xbe), (0x9f4, 0x9f9), (0xb72, 0xb77),
    (0xbf0, 0xbf2), (0xc78, 0xc7e), (0xd58, 0xd5e), (0xd70, 0xd78), (0xf2a, 0xf33), (0x1369, 0x137c),
    (0x17f0, 0x17f9), (0x19da, 0x19da), (0x2070, 0x2070), (0x2074, 0x2079), (0x2080, 0x2089), (0x2150, 0x215f),
    (0x2189, 0x2189), (0x2460, 0x249b), (0x24ea, 0x24ff), (0x2776, 0x2793), (0x2cfd, 0x2cfd), (0x3192, 0x3195),
    (0x3220, 0x3229), (0x3248, 0x324f), (0x3251, 0x325f), (0x3280, 0x3289), (0x32b1, 0x32bf), (0xa830, 0xa835),
    (0x10107, 0x10133), (0x10175, 0x10178), (0x1018a, 0x1018a), (0x1018b, 0x1018b), (0x102e1, 0x102fb),
    (0x10320, 0x10323), (0x10858, 0x1085f), (0x10879, 0x1087f), (0x108a7, 0x108af), (0x108fb, 0x108ff),
    (0x10916, 0x1091b), (0x109bc, 0x109bc), (0x109bd, 0x109bd), (0x109c0, 0x109cf), (0x109d2, 0x109ff),
    (0x10a40, 0x10a48), (0x10a7d, 0x10a7d), (0x10a7e, 0x10a7e), (0x10a9d, 0x10a9f), (0x10aeb, 0x10aef),
    (0x10b58, 0x10b5f), (0x10b78, 0x10b7f), (0x10ba9, 0x10baf), (0x10cfa, 0x10cff), (0x10e60, 0x10e7e),
    (0x10f1d, 0x10f26), (0x10f51, 0x10f54), (0x10fc5, 0x10fcb), (0x11052, 0x11065), (0x111e1, 0x111f4),
    (0x1173a, 0x1173a), (0x1173b, 0x1173b), (0x118ea, 0x118f2), (0x11c5a, 0x11c6c), (0x11fc0, 0x11fd4),
    (0x16b5b, 0x16b61), (0x16e80, 0x16e96), (0x1d2c0, 0x1d2d3), (0x1d2e0, 0x1d2f3), (0x1d360, 0x1d378),
    (0x1e8c7, 0x1e8cf), (0x1ec71, 0x1ecab), (0x1ecad, 0x1ecaf), (0x1ecb1, 0x1ecb4), (0x1ed01, 0x1ed2d),
    (0x1ed2f, 0x1ed3d), (0x1f100, 0x1f10c)]

/-- parser/tokeniser/unicode.hpp:586-590. -/
def pPc : PropText :=
  .ranges false [(0x5f, 0x5f), (0x203f, 0x203f), (0x2040, 0x2040), (0x2054, 0x2054), (0xfe33, 0xfe33),
    (0xfe34, 0xfe34), (0xfe4d, 0xfe4f), (0xff3f, 0xff3f)]

/-- parser/tokeniser/unicode.hpp:592-597. -/
def pPd : PropText :=
  .ranges false [(0x2d, 0x2d), (0x58a, 0x58a), (0x5be, 0x5be), (0x1400, 0x1400), (0x1806, 0x1806), (0x2010, 0x2015),
    (0x2e17, 0x2e17), (0x2e1a, 0x2e1a), (0x2e3a, 0x2e3a), (0x2e3b, 0x2e3b), (0x2e40, 0x2e40), (0x2e5d, 0x2e5d),
    (0x301c, 0x301c), (0x3030, 0x3030), (0x30a0, 0x30a0), (0xfe31, 0xfe31), (0xfe32, 0xfe32), (0xfe58, 0xfe58),
    (0xfe63, 0xfe63), (0xff0d, 0xff0d), (0x10d6e, 0x10d6e), (0x10ead, 0x10ead)]

/-- parser/tokeniser/unicode.hpp:599-610. -/
def pPe : PropText :=
  .ranges false [(0x29, 0x29), (0x5d, 0x5d), (0x7d, 0x7d), (0xf3b, 0xf3b), (0xf3d, 0xf3d), (0x169c, 0x169c),
    (0x2046, 0x2046), (0x207e, 0x207e), (0x208e, 0x208e), (0x2309, 0x2309), (0x230b, 0x230b), (0x232a, 0x232a),
    (0x2769, 0x2769), (0x276b, 0x276b), (0x276d, 0x276d), (0x276f, 0x276f), (0x2771, 0x2771), (0x2773, 0x2773),
    (0x2775, 0x2775), (0x27c6, 0x27c6), (0x27e7, 0x27e7), (0x27e9, 0x27e9), (0x27eb, 0x27eb), (0x27ed, 0x27ed),
    (0x27ef, 0x27ef), (0x2984, 0x2984), (0x2986, 0x2986), (0x2988, 0x2988), (0x298a, 0x298a), (0x298c, 0x298c),
    (0x298e, 0x298e), (0x2990, 0x2990), (0x2992, 0x2992), (0x2994, 0x2994), (0x2996, 0x2996), (0x2998, 0x2998),
    (0x29d9, 0x29d9), (0x29db, 0x29db), (0x29fd, 0x29fd), (0x2e23, 0x2e23), (0x2e25, 0x2e25), (0x2e27, 0x2e27),
    (0x2e29, 0x2e29), (0x2e56, 0x2e56), (0x2e58, 0x2e58), (0x2e5a, 0x2e5a), (0x2e5c, 0x2e5c), (0x3009, 0x3009),
    (0x300b, 0x300b), (0x300d, 0x300d), (0x300f, 0x300f), (0x3011, 0x3011), (0x3015, 0x3015), (0x3017, 0x3017),
    (0x3019, 0x3019), (0x301b, 0x301b), (0x301e, 0x301e), (0x301f, 0x301f), (0xfd3e, 0xfd3e), (0xfe18, 0xfe18),
    (0xfe36, 0xfe36), (0xfe38, 0xfe38), (0xfe3a, 0xfe3a), (0xfe3c, 0xfe3c), (0xfe3e, 0xfe3e), (0xfe40, 0xfe40),
    (0xfe42, 0xfe42), (0xfe44, 0xfe44), (0xfe48, 0xfe48), (0xfe5a, 0xfe5a), (0xfe5c, 0xfe5c), (0xfe5e, 0xfe5e),
    (0xff09, 0xff09), (0xff3d, 0xff3d), (0xff5d, 0xff5d), (0xff60, 0xff60), (0xff63, 0xff63)]

/-- parser/tokeniser/unicode.hpp:612-616. -/
def pPf : PropText :=
  .ranges false [(0xbb, 0xbb), (0x2019, 0x2019), (0x201d, 0x201d), (0x203a, 0x203a), (0x2e03, 0x2e03),
    (0x2e05, 0x2e05), (0x2e0a, 0x2e0a), (0x2e0d, 0x2e0d), (0x2e1d, 0x2e1d), (0x2e21, 0x2e21)]

/-- parser/tokeniser/unicode.hpp:618-622. -/
def pPi : PropText :=
  .ranges false [(0xab, 0xab), (0x2018, 0x2018), (0x201b, 0x201b), (0x201c, 0x201c), (0x201f, 0x201f),
    (0x2039, 0x2039), (0x2e02, 0x2e02), (0x2e04, 0x2e04), (0x2e09, 0x2e09), (0x2e0c, 0x2e0c), (0x2e1c, 0x2e1c),
    (0x2e20, 0x2e20)]

/-- parser/tokeniser/unicode.hpp:624-666. -/
def pPo : PropText :=
  .ranges false [(0x21, 0x23), (0x25, 0x27), (0x2a, 0x2a), (0x2c, 0x2c), (0x2e, 0x2e), (0x2f, 0x2f), (0x3a, 0x3a),
    (0x3b, 0x3b), (0x3f, 0x3f), (0x40, 0x40), (0x5c, 0x5c), (0xa1, 0xa1), (0xa7, 0xa7), (0xb6, 0xb6), (0xb7, 0xb7),
    (0xbf, 0xbf), (0x37e, 0x37e), (0x387, 0x387), (0x55a, 0x55f), (0x589, 0x589), (0x5c0, 0x5c0), (0x5c3, 0x5c3),
    (0x5c6, 0x5c6), (0x5f3, 0x5f3), (0x5f4, 0x5f4), (0x609, 0x609), (0x60a, 0x60a), (0x60c, 0x60c), (0x60d, 0x60d),
    (0x61b, 0x61b), (0x61d, 0x61f), (0x66a, 0x66d), (0x6d4, 0x6d4), (0x700, 0x70d), (0x7f7, 0x7f9), (0x830, 0x83e),
    (0x85e, 0x85e), (0x964, 0x964), (0x965, 0x965), (0x970, 0x970), (0x9fd, 0x9fd), (0xa76, 0xa76), (0xaf0, 0xaf0),
    (0xc77, 0xc77), (0xc84, 0xc84), (0xdf4, 0xdf4), (0xe4f, 0xe4f), (0xe5a, 0xe5a), (0xe5b, 0xe5b), (0xf04, 0xf12),
    (0xf14, 0xf14), (0xf85, 0xf85), (0xfd0, 0xfd4), (0xfd9, 0xfd9), (0xfda, 0xfda), (0x104a, 0x104f),
    (0x10fb, 0x10fb), (0x1360, 0x1368), (0x166e, 0x166e), (0x16eb, 0x16ed), (0x1735, 0x1735), (0x1736, 0x1736),
    (0x17d4, 0x17d6), (0x17d8, 0x17da), (0x1800, 0x1805), (0x1807, 0x180a), (0x1944, 0x1944), (0x1945, 0x1945),
    (0x1a1e, 0x1a1e), (0x1a1f, 0x1a1f), (0x1aa0, 0x1aa6), (0x1aa8, 0x1aad), (0x1b4e, 0x1b4e), (0x1b4f, 0x1b4f),
    (0x1b5a, 0x1b60), (0x1b7d, 0x1b7f), (0x1bfc, 0x1bff), (0x1c3b, 0x1c3f), (0x1c7e, 0x1c7e), (0x1c7f, 0x1c7f),
    (0x1cc0, 0x1cc7), (0x1cd3, 0x1cd3), (0x2016, 0x2016), (0x2017, 0x2017), (0x2020, 0x2027), (0x2030, 0x2038),
    (0x203b, 0x203e), (0x2041, 0x2043), (0x2047, 0x2051), (0x2053, 0x2053), (0x2055, 0x205e), (0x2cf9, 0x2cfc),
    (0x2cfe, 0x2cfe), (0x2cff, 0x2cff), (0x2d70, 0x2d70), (0x2e00, 0x2e00), (0x2e01, 0x2e01), (0x2e06, 0x2e08),
    (0x2e0b, 0x2e0b), (0x2e0e, 0x2e16), (0x2e18, 0x2e18), (0x2e19, 0x2e19), (0x2e1b, 0x2e1b), (0x2e1e, 0x2e1e),
    (0x2e1f, 0x2e1f), (0x2e2a, 0x2e2e), (0x2e30, 0x2e39), (0x2e3c, 0x2e3f), (0x2e41, 0x2e41), (0x2e43, 0x2e4f),
    (0x2e52, 0x2e54), (0x3001, 0x3003), (0x303d, 0x303d), (0x30fb, 0x30fb), (0xa4fe, 0xa4fe), (0xa4ff, 0xa4ff),
    (0xa60d, 0xa60f), (0xa673, 0xa673), (0xa67e, 0xa67e), (0xa6f2, 0xa6f7), (0xa874, 0xa877), (0xa8ce, 0xa8ce),
    (0xa8cf, 0xa8cf), (0xa8f8, 0xa8fa), (0xa8fc, 0xa8fc), (0xa92e, 0xa92e), (0xa92f, 0xa92f), (0xa95f, 0xa95f),
    (0xa9c1, 0xa9cd), (0xa9de, 0xa9de), (0xa9df, 0xa9df), (0xaa5c, 0xaa5f), (0xaade, 0xaade), (0xaadf, 0xaadf),
    (0xaaf0, 0xaaf0), (0xaaf1, 0xaaf1), (0xabeb, 0xabeb), (0xfe10, 0xfe16), (0xfe19, 0xfe19), (0xfe30, 0xfe30),
    (0xfe45, 0xfe45), (0xfe46, 0xfe46), (0xfe49, 0xfe4c), (0xfe50, 0xfe52), (0xfe54, 0xfe57), (0xfe5f, 0xfe61),
    (0xfe68, 0xfe68), (0xfe6a, 0xfe6a), (0xfe6b, 0xfe6b), (0xff01, 0xff03), (0xff05, 0xff07), (0xff0a, 0xff0a),
    (0xff0c, 0xff0c), (0xff0e, 0xff0e), (0xff0f, 0xff0f), (0xff1a, 0xff1a), (0xff1b, 0xff1b), (0xff1f, 0xff1f),
    (0xff20, 0xff20), (0xff3c, 0xff3c), (0xff61, 0xff61), (0xff64, 0xff64), (0xff65, 0xff65), (0x10100, 0x10102),
    (0x1039f, 0x1039f), (0x103d0, 0x103d0), (0x1056f, 0x1056f), (0x10857, 0x10857), (0x1091f, 0x1091f),
    (0x1093f, 0x1093f), (0x10a50, 0x10a58), (0x10a7f, 0x10a7f), (0x10af0, 0x10af6), (0x10b39, 0x10b3f),
    (0x10b99, 0x10b9c), (0x10ed0, 0x10ed0), (0x10f55, 0x10f59), (0x10f86, 0x10f89), (0x11047, 0x1104d),
    (0x110bb, 0x110bb), (0x110bc, 0x110bc), (0x110be, 0x110c1), (0x11140, 0x11143), (0x11174, 0x11174),
    (0x11175, 0x11175), (0x111c5, 0x111c8), (0x111cd, 0x111cd), (0x111db, 0x111db), (0x111dd, 0x111df),
    (0x11238, 0x1123d), (0x112a9, 0x112a9), (0x113d4, 0x113d4), (0x113d5, 0x113d5), (0x113d7, 0x113d7),
    (0x113d8, 0x113d8), (0x1144b, 0x1144f), (0x1145a, 0x1145a), (0x1145b, 0x1145b), (0x1145d, 0x1145d),
    (0x114c6, 0x114c6), (0x115c1, 0x115d7), (0x11641, 0x11643), (0x11660, 0x1166c), (0x116b9, 0x116b9),
    (0x1173c, 0x1173e), (0x1183b, 0x1183b), (0x11944, 0x11946), (0x119e2, 0x119e2), (0x11a3f, 0x11a46),
    (0x11a9a, 0x11a9c), (0x11a9e, 0x11aa2), (0x11b00, 0x11b09), (0x11be1, 0x11be1), (0x11c41, 0x11c45),
    (0x11c70, 0x11c70), (0x11c71, 0x11c71), (0x11ef7, 0x11ef7), (0x11ef8, 0x11ef8), (0x11f43, 0x11f4f),
    (0x11fff, 0x11fff), (0x12470, 0x12474), (0x12ff1, 0x12ff1), (0x12ff2, 0x12ff2), (0x16a6e, 0x16a6e),
    (0x16a6f, 0x16a6f), (0x16af5, 0x16af5), (0x16b37, 0x16b3b), (0x16b44, 0x16b44), (0x16d6d, 0x16d6f),
    (0x16e97, 0x16e9a), (0x16fe2, 0x16fe2), (0x1bc9f, 0x1bc9f), (0x1da87, 0x1da8b), (0x1e5ff, 0x1e5ff),
    (0x1e95e, 0x1e95e), (0x1e95f, 0x1e95f)]

/-- parser/tokeniser/unicode.hpp:668-679. -/
def pPs : PropText :=
  .ranges false [(0x28, 0x28), (0x5b, 0x5b), (0x7b, 0x7b), (0xf3a, 0xf3a), (0xf3c, 0xf3c), (0x169b, 0x169b),
    (0x201a, 0x201a), (0x201e, 0x201e), (0x2045, 0x2045), (0x207d, 0x207d), (0x208d, 0x208d), (0x2308, 0x2308),
    (0x230a, 0x230a), (0x2329, 0x2329), (0x2768, 0x2768), (0x276a, 0x276a), (0x276c, 0x276c), (0x276e, 0x276e),
    (0x2770, 0x2770), (0x2772, 0x2772), (0x2774, 0x2774), (0x27c5, 0x27c5), (0x27e6, 0x27e6), (0x27e8, 0x27e8),
    (0x27ea, 0x27ea), (0x27ec, 0x27ec), (0x27ee, 0x27ee), (0x2983, 0x2983), (0x2985, 0x2985), (0x2987, 0x2987),
    (0x2989, 0x2989), (0x298b, 0x298b), (0x298d, 0x298d), (0x298f, 0x298f), (0x2991, 0x2991), (0x2993, 0x2993),
    (0x2995, 0x2995), (0x2997, 0x2997), (0x29d8, 0x29d8), (0x29da, 0x29da), (0x29fc, 0x29fc), (0x2e22, 0x2e22),
    (0x2e24, 0x2e24), (0x2e26, 0x2e26), (0x2e28, 0x2e28), (0x2e42, 0x2e42), (0x2e55, 0x2e55), (0x2e57, 0x2e57),
    (0x2e59, 0x2e59), (0x2e5b, 0x2e5b), (0x3008, 0x3008), (0x300a, 0x300a), (0x300c, 0x300c), (0x300e, 0x300e),
    (0x3010, 0x3010), (0x3014, 0x3014), (0x3016, 0x3016), (0x3018, 0x3018), (0x301a, 0x301a), (0x301d, 0x301d),
    (0xfd3f, 0xfd3f), (0xfe17, 0xfe17), (0xfe35, 0xfe35), (0xfe37, 0xfe37), (0xfe39, 0xfe39), (0xfe3b, 0xfe3b),
    (0xfe3d, 0xfe3d), (0xfe3f, 0xfe3f), (0xfe41, 0xfe41), (0xfe43, 0xfe43), (0xfe47, 0xfe47), (0xfe59, 0xfe59),
    (0xfe5b, 0xfe5b), (0xfe5d, 0xfe5d), (0xff08, 0xff08), (0xff3b, 0xff3b), (0xff5b, 0xff5b), (0xff5f, 0xff5f),
    (0xff62, 0xff62)]

/-- parser/tokeniser/unicode.hpp:681-687. -/
def pSc : PropText :=
  .ranges false [(0x24, 0x24), (0xa2, 0xa5), (0x58f, 0x58f), (0x60b, 0x60b), (0x7fe, 0x7fe), (0x7ff, 0x7ff),
    (0x9f2, 0x9f2), (0x9f3, 0x9f3), (0x9fb, 0x9fb), (0xaf1, 0xaf1), (0xbf9, 0xbf9), (0xe3f, 0xe3f), (0x17db, 0x17db),
    (0x20a0, 0x20c1), (0xa838, 0xa838), (0xfdfc, 0xfdfc), (0xfe69, 0xfe69), (0xff04, 0xff04), (0xffe0, 0xffe0),
    (0xffe1, 0xffe1), (0xffe5, 0xffe5), (0xffe6, 0xffe6), (0x11fdd, 0x11fe0), (0x1e2ff, 0x1e2ff), (0x1ecb0, 0x1ecb0)]

/-- parser/tokeniser/unicode.hpp:689-697. -/
def pSk : PropText :=
  .ranges false [(0x5e, 0x5e), (0x60, 0x60), (0xa8, 0xa8), (0xaf, 0xaf), (0xb4, 0xb4), (0xb8, 0xb8), (0x2c2, 0x2c5),
    (0x2d2, 0x2df), (0x2e5, 0x2eb), (0x2ed, 0x2ed), (0x2ef, 0x2ff), (0x375, 0x375), (0x384, 0x384), (0x385, 0x385),
    (0x888, 0x888), (0x1fbd, 0x1fbd), (0x1fbf, 0x1fc1), (0x1fcd, 0x1fcf), (0x1fdd, 0x1fdf), (0x1fed, 0x1fef),
    (0x1ffd, 0x1ffd), (0x1ffe, 0x1ffe), (0x309b, 0x309b), (0x309c, 0x309c), (0xa700, 0xa716), (0xa720, 0xa720),
    (0xa721, 0xa721), (0xa789, 0xa789), (0xa78a, 0xa78a), (0xab5b, 0xab5b), (0xab6a, 0xab6a), (0xab6b, 0xab6b),
    (0xfbb2, 0xfbc2), (0xff3e, 0xff3e), (0xff40, 0xff40), (0xffe3, 0xffe3), (0x1f3fb, 0x1f3ff)]

/-- parser/tokeniser/unicode.hpp:699-713. -/
def pSm : PropText :=
  .ranges false [(0x2b, 0x2b), (0x3c, 0x3e), (0x7c, 0x7c), (0x7e, 0x7e), (0xac, 0xac), (0xb1, 0xb1), (0xd7, 0xd7),
    (0xf7, 0xf7), (0x3f6, 0x3f6), (0x606, 0x608), (0x2044, 0x2044), (0x2052, 0x2052), (0x207a, 0x207c),
    (0x208a, 0x208c), (0x2118, 0x2118), (0x2140, 0x2144), (0x214b, 0x214b), (0x2190, 0x2194), (0x219a, 0x219a),
    (0x219b, 0x219b), (0x21a0, 0x21a0), (0x21a3, 0x21a3), (0x21a6, 0x21a6), (0x21ae, 0x21ae), (0x21ce, 0x21ce),
    (0x21cf, 0x21cf), (0x21d2, 0x21d2), (0x21d4, 0x21d4), (0x21f4, 0x22ff), (0x2320, 0x2320), (0x2321, 0x2321),
    (0x237c, 0x237c), (0x239b, 0x23b3), (0x23dc, 0x23e1), (0x25b7, 0x25b7), (0x25c1, 0x25c1), (0x25f8, 0x25ff),
    (0x266f, 0x266f), (0x27c0, 0x27c4), (0x27c7, 0x27e5), (0x27f0, 0x27ff), (0x2900, 0x2982), (0x2999, 0x29d7),
    (0x29dc, 0x29fb), (0x29fe, 0x2aff), (0x2b30, 0x2b44), (0x2b47, 0x2b4c), (0xfb29, 0xfb29), (0xfe62, 0xfe62),
    (0xfe64, 0xfe66), (0xff0b, 0xff0b), (0xff1c, 0xff1e), (0xff5c, 0xff5c), (0xff5e, 0xff5e), (0xffe2, 0xffe2),
    (0xffe9, 0xffec), (0x10d8e, 0x10d8e), (0x10d8f, 0x10d8f), (0x1cef0, 0x1cef0), (0x1d6c1, 0x1d6c1),
    (0x1d6db, 0x1d6db), (0x1d6fb, 0x1d6fb), (0x1d715, 0x1d715), (0x1d735, 0x1d735), (0x1d74f, 0x1d74f),
    (0x1d76f, 0x1d76f), (0x1d789, 0x1d789), (0x1d7a9, 0x1d7a9), (0x1d7c3, 0x1d7c3), (0x1eef0, 0x1eef0),
    (0x1eef1, 0x1eef1), (0x1f8d0, 0x1f8d8)]

/-- parser/tokeniser/unicode.hpp:715-763. -/
def pSo : PropText :=
  .ranges false [(0xa6, 0xa6), (0xa9, 0xa9), (0xae, 0xae), (0xb0, 0xb0), (0x482, 0x482), (0x58d, 0x58d),
    (0x58e, 0x58e), (0x60e, 0x60e), (0x60f, 0x60f), (0x6de, 0x6de), (0x6e9, 0x6e9), (0x6fd, 0x6fd), (0x6fe, 0x6fe),
    (0x7f6, 0x7f6), (0x9fa, 0x9fa), (0xb70, 0xb70), (0xbf3, 0xbf8), (0xbfa, 0xbfa), (0xc7f, 0xc7f), (0xd4f, 0xd4f),
    (0xd79, 0xd79), (0xf01, 0xf03), (0xf13, 0xf13), (0xf15, 0xf17), (0xf1a, 0xf1f), (0xf34, 0xf34), (0xf36, 0xf36),
    (0xf38, 0xf38), (0xfbe, 0xfc5), (0xfc7, 0xfcc), (0xfce, 0xfce), (0xfcf, 0xfcf), (0xfd5, 0xfd8), (0x109e, 0x109e),
    (0x109f, 0x109f), (0x1390, 0x1399), (0x166d, 0x166d), (0x1940, 0x1940), (0x19de, 0x19ff), (0x1b61, 0x1b6a),
    (0x1b74, 0x1b7c), (0x2100, 0x2100), (0x2101, 0x2101), (0x2103, 0x2106), (0x2108, 0x2108), (0x2109, 0x2109),
    (0x2114, 0x2114), (0x2116, 0x2116), (0x2117, 0x2117), (0x211e, 0x2123), (0x2125, 0x2125), (0x2127, 0x2127),
    (0x2129, 0x2129), (0x212e, 0x212e), (0x213a, 0x213a), (0x213b, 0x213b), (0x214a, 0x214a), (0x214c, 0x214c),
    (0x214d, 0x214d), (0x214f, 0x214f), (0x218a, 0x218a), (0x218b, 0x218b), (0x2195, 0x2199), (0x219c, 0x219f),
    (0x21a1, 0x21a1), (0x21a2, 0x21a2), (0x21a4, 0x21a4), (0x21a5, 0x21a5), (0x21a7, 0x21ad), (0x21af, 0x21cd),
    (0x21d0, 0x21d0), (0x21d1, 0x21d1), (0x21d3, 0x21d3), (0x21d5, 0x21f3), (0x2300, 0x2307), (0x230c, 0x231f),
    (0x2322, 0x2328), (0x232b, 0x237b), (0x237d, 0x239a), (0x23b4, 0x23db), (0x23e2, 0x2429), (0x2440, 0x244a),
    (0x249c, 0x24e9), (0x2500, 0x25b6), (0x25b8, 0x25c0), (0x25c2, 0x25f7), (0x2600, 0x266e), (0x2670, 0x2767),
    (0x2794, 0x27bf), (0x2800, 0x28ff), (0x2b00, 0x2b2f), (0x2b45, 0x2b45), (0x2b46, 0x2b46), (0x2b4d, 0x2b73),
    (0x2b76, 0x2bff), (0x2ce5, 0x2cea), (0x2e50, 0x2e50), (0x2e51, 0x2e51), (0x2e80, 0x2e99), (0x2e9b, 0x2ef3),
    (0x2f00, 0x2fd5), (0x2ff0, 0x2fff), (0x3004, 0x3004), (0x3012, 0x3012), (0x3013, 0x3013), (0x3020, 0x3020),
    (0x3036, 0x3036), (0x3037, 0x3037), (0x303e, 0x303e), (0x303f, 0x303f), (0x3190, 0x3190), (0x3191, 0x3191),
    (0x3196, 0x319f), (0x31c0, 0x31e5), (0x31ef, 0x31ef), (0x3200, 0x321e), (0x322a, 0x3247), (0x3250, 0x3250),
    (0x3260, 0x327f), (0x328a, 0x32b0), (0x32c0, 0x33ff), (0x4dc0, 0x4dff), (0xa490, 0xa4c6), (0xa828, 0xa82b),
    (0xa836, 0xa836), (0xa837, 0xa837), (0xa839, 0xa839), (0xaa77, 0xaa79), (0xfbc3, 0xfbd2), (0xfd40, 0xfd4f),
    (0xfd90, 0xfd90), (0xfd91, 0xfd91), (0xfdc8, 0xfdcf), (0xfdfd, 0xfdff), (0xffe4, 0xffe4), (0xffe8, 0xffe8),
    (0xffed, 0xffed), (0xffee, 0xffee), (0xfffc, 0xfffc), (0xfffd, 0xfffd), (0x10137, 0x1013f), (0x10179, 0x10189),
    (0x1018c, 0x1018e), (0x10190, 0x1019c), (0x101a0, 0x101a0), (0x101d0, 0x101fc), (0x10877, 0x10877),
    (0x10878, 0x10878), (0x10ac8, 0x10ac8), (0x10ed1, 0x10ed8), (0x1173f, 0x1173f), (0x11fd5, 0x11fdc),
    (0x11fe1, 0x11ff1), (0x16b3c, 0x16b3f), (0x16b45, 0x16b45), (0x1bc9c, 0x1bc9c), (0x1cc00, 0x1ccef),
    (0x1ccfa, 0x1ccfc), (0x1cd00, 0x1ceb3), (0x1ceba, 0x1ced0), (0x1cee0, 0x1ceef), (0x1cf50, 0x1cfc3),
    (0x1d000, 0x1d0f5), (0x1d100, 0x1d126), (0x1d129, 0x1d164), (0x1d16a, 0x1d16c), (0x1d183, 0x1d183),
    (0x1d184, 0x1d184), (0x1d18c, 0x1d1a9), (0x1d1ae, 0x1d1ea), (0x1d200, 0x1d241), (0x1d245, 0x1d245),
    (0x1d300, 0x1d356), (0x1d800, 0x1d9ff), (0x1da37, 0x1da3a), (0x1da6d, 0x1da74), (0x1da76, 0x1da83),
    (0x1da85, 0x1da85), (0x1da86, 0x1da86), (0x1e14f, 0x1e14f), (0x1ecac, 0x1ecac), (0x1ed2e, 0x1ed2e),
    (0x1f000, 0x1f02b), (0x1f030, 0x1f093), (0x1f0a0, 0x1f0ae), (0x1f0b1, 0x1f0bf), (0x1f0c1, 0x1f0cf),
    (0x1f0d1, 0x1f0f5), (0x1f10d, 0x1f1ad), (0x1f1e6, 0x1f202), (0x1f210, 0x1f23b), (0x1f240, 0x1f248),
    (0x1f250, 0x1f250), (0x1f251, 0x1f251), (0x1f260, 0x1f265), (0x1f300, 0x1f3fa), (0x1f400, 0x1f6d8),
    (0x1f6dc, 0x1f6ec), (0x1f6f0, 0x1f6fc), (0x1f700, 0x1f7d9), (0x1f7e0, 0x1f7eb), (0x1f7f0, 0x1f7f0),
    (0x1f800, 0x1f80b), (0x1f810, 0x1f847), (0x1f850, 0x1f859), (0x1f860, 0x1f887), (0x1f890, 0x1f8ad),
    (0x1f8b0, 0x1f8bb), (0x1f8c0, 0x1f8c0), (0x1f8c1, 0x1f8c1), (0x1f900, 0x1fa57), (0x1fa60, 0x1fa6d),
    (0x1fa70, 0x1fa7c), (0x1fa80, 0x1fa8a), (0x1fa8e, 0x1fac6), (0x1fac8, 0x1fac8), (0x1facd, 0x1fadc),
    (0x1fadf, 0x1faea), (0x1faef, 0x1faf8), (0x1fb00, 0x1fb92), (0x1fb94, 0x1fbef), (0x1fbfa, 0x1fbfa)]

/-- parser/tokeniser/unicode.hpp:765-768. -/
def pZl : PropText :=
  .ranges false [(0x2028, 0x2028)]

/-- parser/tokeniser/unicode.hpp:770-773. -/
def pZp : PropText :=
  .ranges false [(0x2029, 0x2029)]

/-- parser/tokeniser/unicode.hpp:775-778. -/
def pZs : PropText :=
  .ranges false [(0x20, 0x20), (0xa0, 0xa0), (0x1680, 0x1680), (0x2000, 0x200a), (0x202f, 0x202f), (0x205f, 0x205f),
    (0x3000, 0x3000)]

/-- parser/tokeniser/blocks.hpp:2-5. -/
def pInBasic_Latin : PropText :=
  .ranges true [(0x0, 0x7f)]

/-- parser/tokeniser/blocks.hpp:7-10. -/
def pInLatin_1_Supplement : PropText :=
  .ranges true [(0x80, 0xff)]

/-- parser/tokeniser/blocks.hpp:12-15. -/
def pInLatin_Extended_A : PropText :=
  .ranges true [(0x100, 0x17f)]

/-- parser/tokeniser/blocks.hpp:17-20. -/
def pInLatin_Extended_B : PropText :=
  .ranges true [(0x180, 0x24f)]

/-- parser/tokeniser/blocks.hpp:22-25. -/
def pInIPA_Extensions : PropText :=
  .ranges true [(0x250, 0x2af)]

/-- parser/tokeniser/blocks.hpp:27-30. -/
def pInSpacing_Modifier_Letters : PropText :=
  .ranges true [(0x2b0, 0x2ff)]

/-- parser/tokeniser/blocks.hpp:32-35. -/
def pInCombining_Diacritical_Marks : PropText :=
  .ranges true [(0x300, 0x36f)]

/-- parser/tokeniser/blocks.hpp:37-40. -/
def pInGreek_and_Coptic : PropText :=
  .ranges true [(0x370, 0x3ff)]

/-- parser/tokeniser/blocks.hpp:42-45. -/
def pInCyrillic : PropText :=
  .ranges true [(0x400, 0x4ff)]

/-- parser/tokeniser/blocks.hpp:47-50. -/
def pInCyrillic_Supplement : PropText :=
  .ranges true [(0x500, 0x52f)]

/-- parser/tokeniser/blocks.hpp:52-55. -/
def pInArmenian : PropText :=
  .ranges true [(0x530, 0x58f)]

/-- parser/tokeniser/blocks.hpp:57-60. -/
def pInHebrew : PropText :=
  .ranges true [(0x590, 0x5ff)]

/-- parser/tokeniser/blocks.hpp:62-65. -/
def pInArabic : PropText :=
  .ranges true [(0x600, 0x6ff)]

/-- parser/tokeniser/blocks.hpp:67-70. -/
def pInSyriac : PropText :=
  .ranges true [(0x700, 0x74f)]

/-- parser/tokeniser/blocks.hpp:72-75. -/
def pInArabic_Supplement : PropText :=
  .ranges true [(0x750, 0x77f)]

/-- parser/tokeniser/blocks.hpp:77-80. -/
def pInThaana : PropText :=
  .ranges true [(0x780, 0x7bf)]

/-- parser/tokeniser/blocks.hpp:82-85. -/
def pInNKo : PropText :=
  .ranges true [(0x7c0, 0x7ff)]

/-- parser/tokeniser/blocks.hpp:87-90. -/
def pInSamaritan : PropText :=
  .ranges true [(0x800, 0x83f)]

/-- parser/tokeniser/blocks.hpp:92-95. -/
def pInMandaic : PropText :=
  .ranges true [(0x840, 0x85f)]

/-- parser/tokeniser/blocks.hpp:97-100. -/
def pInSyriac_Supplement : PropText :=
  .ranges true [(0x860, 0x86f)]

/-- parser/tokeniser/blocks.hpp:102-105. -/
def pInArabic_Extended_B : PropText :=
  .ranges true [(0x870, 0x89f)]

/-- parser/tokeniser/blocks.hpp:107-110. -/
def pInArabic_Extended_A : PropText :=
  .ranges true [(0x8a0, 0x8ff)]

/-- parser/tokeniser/blocks.hpp:112-115. -/
def pInDevanagari : PropText :=
  .ranges true [(0x900, 0x97f)]

/-- parser/tokeniser/blocks.hpp:117-120. -/
def pInBengali : PropText :=
  .ranges true [(0x980, 0x9ff)]

/-- parser/tokeniser/blocks.hpp:122-125. -/
def pInGurmukhi : PropText :=
  .ranges true [(0xa00, 0xa7f)]

/-- parser/tokeniser/blocks.hpp:127-130. -/
def pInGujarati : PropText :=
  .ranges true [(0xa80, 0xaff)]

/-- parser/tokeniser/blocks.hpp:132-135. -/
def pInOriya : PropText :=
  .ranges true [(0xb00, 0xb7f)]

/-- parser/tokeniser/blocks.hpp:137-140. -/
def pInTamil : PropText :=
  .ranges true [(0xb80, 0xbff)]

/-- parser/tokeniser/blocks.hpp:142-145. -/
def pInTelugu : PropText :=
  .ranges true [(0xc00, 0xc7f)]

/-- parser/tokeniser/blocks.hpp:147-150. -/
def pInKannada : PropText :=
  .ranges true [(0xc80, 0xcff)]

/-- parser/tokeniser/blocks.hpp:152-155. -/
def pInMalayalam : PropText :=
  .ranges true [(0xd00, 0xd7f)]

/-- parser/tokeniser/blocks.hpp:157-160. -/
def pInSinhala : PropText :=
  .ranges true [(0xd80, 0xdff)]

/-- parser/tokeniser/blocks.hpp:162-165. -/
def pInThai : PropText :=
  .ranges true [(0xe00, 0xe7f)]

/-- parser/tokeniser/blocks.hpp:167-170. -/
def pInLao : PropText :=
  .ranges true [(0xe80, 0xeff)]

/-- parser/tokeniser/blocks.hpp:172-175. -/
def pInTibetan : PropText :=
  .ranges true [(0xf00, 0xfff)]

/-- parser/tokeniser/blocks.hpp:177-180. -/
def pInMyanmar : PropText :=
  .ranges true [(0x1000, 0x109f)]

/-- parser/tokeniser/blocks.hpp:182-185. -/
def pInGeorgian : PropText :=
  .ranges true [(0x10a0, 0x10ff)]

/-- parser/tokeniser/blocks.hpp:187-190. -/
def pInHangul_Jamo : PropText :=
  .ranges true [(0x1100, 0x11ff)]

/-- parser/tokeniser/blocks.hpp:192-195. -/
def pInEthiopic : PropText :=
  .ranges true [(0x1200, 0x137f)]

/-- parser/tokeniser/blocks.hpp:197-200. -/
def pInEthiopic_Supplement : PropText :=
  .ranges true [(0x1380, 0x139f)]

/-- parser/tokeniser/blocks.hpp:202-205. -/
def pInCherokee : PropText :=
  .ranges true [(0x13a0, 0x13ff)]

/-- parser/tokeniser/blocks.hpp:207-210. -/
def pInUnified_Canadian_Aboriginal_Syllabics : PropText :=
  .ranges true [(0x1400, 0x167f)]

/-- parser/tokeniser/blocks.hpp:212-215. -/
def pInOgham : PropText :=
  .ranges true [(0x1680, 0x169f)]

/-- parser/tokeniser/blocks.hpp:217-220. -/
def pInRunic : PropText :=
  .ranges true [(0x16a0, 0x16ff)]

/-- parser/tokeniser/blocks.hpp:222-225. -/
def pInTagalog : PropText :=
  .ranges true [(0x1700, 0x171f)]

/-- parser/tokeniser/blocks.hpp:227-230. -/
def pInHanunoo : PropText :=
  .ranges true [(0x1720, 0x173f)]

/-- parser/tokeniser/blocks.hpp:232-235. -/
def pInBuhid : PropText :=
  .ranges true [(0x1740, 0x175f)]

/-- parser/tokeniser/blocks.hpp:237-240. -/
def pInTagbanwa : PropText :=
  .ranges true [(0x1760, 0x177f)]

/-- parser/tokeniser/blocks.hpp:242-245. -/
def pInKhmer : PropText :=
  .ranges true [(0x1780, 0x17ff)]

/-- parser/tokeniser/blocks.hpp:247-250. -/
def pInMongolian : PropText :=
  .ranges true [(0x1800, 0x18af)]

/-- parser/tokeniser/blocks.hpp:252-255. -/
def pInUnified_Canadian_Aboriginal_Syllabics_Extended : PropText :=
  .ranges true [(0x18b0, 0x18ff)]

/-- parser/tokeniser/blocks.hpp:257-260. -/
def pInLimbu : PropText :=
  .ranges true [(0x1900, 0x194f)]

/-- parser/tokeniser/blocks.hpp:262-265. -/
def pInTai_Le : PropText :=
  .ranges true [(0x1950, 0x197f)]

/-- parser/tokeniser/blocks.hpp:267-270. -/
def pInNew_Tai_Lue : PropText :=
  .ranges true [(0x1980, 0x19df)]

/-- parser/tokeniser/blocks.hpp:272-275. -/
def pInKhmer_Symbols : PropText :=
  .ranges true [(0x19e0, 0x19ff)]

/-- parser/tokeniser/blocks.hpp:277-280. -/
def pInBuginese : PropText :=
  .ranges true [(0x1a00, 0x1a1f)]

/-- parser/tokeniser/blocks.hpp:282-285. -/
def pInTai_Tham : PropText :=
  .ranges true [(0x1a20, 0x1aaf)]

/-- parser/tokeniser/blocks.hpp:287-290. -/
def pInCombining_Diacritical_Marks_Extended : PropText :=
  .ranges true [(0x1ab0, 0x1aff)]

/-- parser/tokeniser/blocks.hpp:292-295. -/
def pInBalinese : PropText :=
  .ranges true [(0x1b00, 0x1b7f)]

/-- parser/tokeniser/blocks.hpp:297-300. -/
def pInSundanese : PropText :=
  .ranges true [(0x1b80, 0x1bbf)]

/-- parser/tokeniser/blocks.hpp:302-305. -/
def pInBatak : PropText :=
  .ranges true [(0x1bc0, 0x1bff)]

/-- parser/tokeniser/blocks.hpp:307-310. -/
def pInLepcha : PropText :=
  .ranges true [(0x1c00, 0x1c4f)]

/-- parser/tokeniser/blocks.hpp:312-315. -/
def pInOl_Chiki : PropText :=
  .ranges true [(0x1c50, 0x1c7f)]

/-- parser/tokeniser/blocks.hpp:317-320. -/
def pInCyrillic_Extended_C : PropText :=
  .ranges true [(0x1c80, 0x1c8f)]

/-- parser/tokeniser/blocks.hpp:322-325. -/
def pInGeorgian_Extended : PropText :=
  .ranges true [(0x1c90, 0x1cbf)]

/-- parser/tokeniser/blocks.hpp:327-330. -/
def pInSundanese_Supplement : PropText :=
  .ranges true [(0x1cc0, 0x1ccf)]

/-- parser/tokeniser/blocks.hpp:332-335. -/
def pInVedic_Extensions : PropText :=
  .ranges true [(0x1cd0, 0x1cff)]

/-- parser/tokeniser/blocks.hpp:337-340. -/
def pInPhonetic_Extensions : PropText :=
  .ranges true [(0x1d00, 0x1d7f)]

/-- parser/tokeniser/blocks.hpp:342-345. -/
def pInPhonetic_Extensions_Supplement : PropText :=
  .ranges true [(0x1d80, 0x1dbf)]

/-- parser/tokeniser/blocks.hpp:347-350. -/
def pInCombining_Diacritical_Marks_Supplement : PropText :=
  .ranges true [(0x1dc0, 0x1dff)]

/-- parser/tokeniser/blocks.hpp:352-355. -/
def pInLatin_Extended_Additional : PropText :=
  .ranges true [(0x1e00, 0x1eff)]

/-- parser/tokeniser/blocks.hpp:357-360. -/
def pInGreek_Extended : PropText :=
  .ranges true [(0x1f00, 0x1fff)]

/-- parser/tokeniser/blocks.hpp:362-365. -/
def pInGeneral_Punctuation : PropText :=
  .ranges true [(0x2000, 0x206f)]

/-- parser/tokeniser/blocks.hpp:367-370. -/
def pInSuperscripts_and_Subscripts : PropText :=
  .ranges true [(0x2070, 0x209f)]

/-- parser/tokeniser/blocks.hpp:372-375. -/
def pInCurrency_Symbols : PropText :=
  .ranges true [(0x20a0, 0x20cf)]

/-- parser/tokeniser/blocks.hpp:377-380. -/
def pInCombining_Diacritical_Marks_for_Symbols : PropText :=
  .ranges true [(0x20d0, 0x20ff)]

/-- parser/tokeniser/blocks.hpp:382-385. -/
def pInLetterlike_Symbols : PropText :=
  .ranges true [(0x2100, 0x214f)]

/-- parser/tokeniser/blocks.hpp:387-390. -/
def pInNumber_Forms : PropText :=
  .ranges true [(0x2150, 0x218f)]

/-- parser/tokeniser/blocks.hpp:392-395. -/
def pInArrows : PropText :=
  .ranges true [(0x2190, 0x21ff)]

/-- parser/tokeniser/blocks.hpp:397-400. -/
def pInMathematical_Operators : PropText :=
  .ranges true [(0x2200, 0x22ff)]

/-- parser/tokeniser/blocks.hpp:402-405. -/
def pInMiscellaneous_Technical : PropText :=
  .ranges true [(0x2300, 0x23ff)]

/-- parser/tokeniser/blocks.hpp:407-410. -/
def pInControl_Pictures : PropText :=
  .ranges true [(0x2400, 0x243f)]

/-- parser/tokeniser/blocks.hpp:412-415. -/
def pInOptical_Character_Recognition : PropText :=
  .ranges true [(0x2440, 0x245f)]

/-- parser/tokeniser/blocks.hpp:417-420. -/
def pInEnclosed_Alphanumerics : PropText :=
  .ranges true [(0x2460, 0x24ff)]

/-- parser/tokeniser/blocks.hpp:422-425. -/
def pInBox_Drawing : PropText :=
  .ranges true [(0x2500, 0x257f)]

/-- parser/tokeniser/blocks.hpp:427-430. -/
def pInBlock_Elements : PropText :=
  .ranges true [(0x2580, 0x259f)]

/-- parser/tokeniser/blocks.hpp:432-435. -/
def pInGeometric_Shapes : PropText :=
  .ranges true [(0x25a0, 0x25ff)]

/-- parser/tokeniser/blocks.hpp:437-440. -/
def pInMiscellaneous_Symbols : PropText :=
  .ranges true [(0x2600, 0x26ff)]

/-- parser/tokeniser/blocks.hpp:442-445. -/
def pInDingbats : PropText :=
  .ranges true [(0x2700, 0x27bf)]

/-- parser/tokeniser/blocks.hpp:447-450. -/
def pInMiscellaneous_Mathematical_Symbols_A : PropText :=
  .ranges true [(0x27c0, 0x27ef)]

/-- parser/tokeniser/blocks.hpp:452-455. -/
def pInSupplemental_Arrows_A : PropText :=
  .ranges true [(0x27f0, 0x27ff)]

/-- parser/tokeniser/blocks.hpp:457-460. -/
def pInBraille_Patterns : PropText :=
  .ranges true [(0x2800, 0x28ff)]

/-- parser/tokeniser/blocks.hpp:462-465. -/
def pInSupplemental_Arrows_B : PropText :=
  .ranges true [(0x2900, 0x297f)]

/-- parser/tokeniser/blocks.hpp:467-470. -/
def pInMiscellaneous_Mathematical_Symbols_B : PropText :=
  .ranges true [(0x2980, 0x29ff)]

/-- parser/tokeniser/blocks.hpp:472-475. -/
def pInSupplemental_Mathematical_Operators : PropText :=
  .ranges true [(0x2a00, 0x2aff)]

/-- parser/tokeniser/blocks.hpp:477-480. -/
def pInMiscellaneous_Symbols_and_Arrows : PropText :=
  .ranges true [(0x2b00, 0x2bff)]

/-- parser/tokeniser/blocks.hpp:482-485. -/
def pInGlagolitic : PropText :=
  .ranges true [(0x2c00, 0x2c5f)]

/-- parser/tokeniser/blocks.hpp:487-490. -/
def pInLatin_Extended_C : PropText :=
  .ranges true [(0x2c60, 0x2c7f)]

/-- parser/tokeniser/blocks.hpp:492-495. -/
def pInCoptic : PropText :=
  .ranges true [(0x2c80, 0x2cff)]

/-- parser/tokeniser/blocks.hpp:497-500. -/
def pInGeorgian_Supplement : PropText :=
  .ranges true [(0x2d00, 0x2d2f)]

/-- parser/tokeniser/blocks.hpp:502-505. -/
def pInTifinagh : PropText :=
  .ranges true [(0x2d30, 0x2d7f)]

/-- parser/tokeniser/blocks.hpp:507-510. -/
def pInEthiopic_Extended : PropText :=
  .ranges true [(0x2d80, 0x2ddf)]

/-- parser/tokeniser/blocks.hpp:512-515. -/
def pInCyrillic_Extended_A : PropText :=
  .ranges true [(0x2de0, 0x2dff)]

/-- parser/tokeniser/blocks.hpp:517-520. -/
def pInSupplemental_Punctuation : PropText :=
  .ranges true [(0x2e00, 0x2e7f)]

/-- parser/tokeniser/blocks.hpp:522-525. -/
def pInCJK_Radicals_Supplement : PropText :=
  .ranges true [(0x2e80, 0x2eff)]

/-- parser/tokeniser/blocks.hpp:527-530. -/
def pInKangxi_Radicals : PropText :=
  .ranges true [(0x2f00, 0x2fdf)]

/-- parser/tokeniser/blocks.hpp:532-535. -/
def pInIdeographic_Description_Characters : PropText :=
  .ranges true [(0x2ff0, 0x2fff)]

/-- parser/tokeniser/blocks.hpp:537-540. -/
def pInCJK_Symbols_and_Punctuation : PropText :=
  .ranges true [(0x3000, 0x303f)]

/-- parser/tokeniser/blocks.hpp:542-545. -/
def pInHiragana : PropText :=
  .ranges true [(0x3040, 0x309f)]

/-- parser/tokeniser/blocks.hpp:547-550. -/
def pInKatakana : PropText :=
  .ranges true [(0x30a0, 0x30ff)]

/-- parser/tokeniser/blocks.hpp:552-555. -/
def pInBopomofo : PropText :=
  .ranges true [(0x3100, 0x312f)]

/-- parser/tokeniser/blocks.hpp:557-560. -/
def pInHangul_Compatibility_Jamo : PropText :=
  .ranges true [(0x3130, 0x318f)]

/-- parser/tokeniser/blocks.hpp:562-565. -/
def pInKanbun : PropText :=
  .ranges true [(0x3190, 0x319f)]

/-- parser/tokeniser/blocks.hpp:567-570. -/
def pInBopomofo_Extended : PropText :=
  .ranges true [(0x31a0, 0x31bf)]

/-- parser/tokeniser/blocks.hpp:572-575. -/
def pInCJK_Strokes : PropText :=
  .ranges true [(0x31c0, 0x31ef)]

/-- parser/tokeniser/blocks.hpp:577-580. -/
def pInKatakana_Phonetic_Extensions : PropText :=
  .ranges true [(0x31f0, 0x31ff)]

/-- parser/tokeniser/blocks.hpp:582-585. -/
def pInEnclosed_CJK_Letters_and_Months : PropText :=
  .ranges true [(0x3200, 0x32ff)]

/-- parser/tokeniser/blocks.hpp:587-590. -/
def pInCJK_Compatibility : PropText :=
  .ranges true [(0x3300, 0x33ff)]

/-- parser/tokeniser/blocks.hpp:592-595. -/
def pInCJK_Unified_Ideographs_Extension_A : PropText :=
  .ranges true [(0x3400, 0x4dbf)]

/-- parser/tokeniser/blocks.hpp:597-600. -/
def pInYijing_Hexagram_Symbols : PropText :=
  .ranges true [(0x4dc0, 0x4dff)]

/-- parser/tokeniser/blocks.hpp:602-605. -/
def pInCJK_Unified_Ideographs : PropText :=
  .ranges true [(0x4e00, 0x9fff)]

/-- parser/tokeniser/blocks.hpp:607-610. -/
def pInYi_Syllables : PropText :=
  .ranges true [(0xa000, 0xa48f)]

/-- parser/tokeniser/blocks.hpp:612-615. -/
def pInYi_Radicals : PropText :=
  .ranges true [(0xa490, 0xa4cf)]

/-- parser/tokeniser/blocks.hpp:617-620. -/
def pInLisu : PropText :=
  .ranges true [(0xa4d0, 0xa4ff)]

/-- parser/tokeniser/blocks.hpp:622-625. -/
def pInVai : PropText :=
  .ranges true [(0xa500, 0xa63f)]

/-- parser/tokeniser/blocks.hpp:627-630. -/
def pInCyrillic_Extended_B : PropText :=
  .ranges true [(0xa640, 0xa69f)]

/-- parser/tokeniser/blocks.hpp:632-635. -/
def pInBamum : PropText :=
  .ranges true [(0xa6a0, 0xa6ff)]

/-- parser/tokeniser/blocks.hpp:637-640. -/
def pInModifier_Tone_Letters : PropText :=
  .ranges true [(0xa700, 0xa71f)]

/-- parser/tokeniser/blocks.hpp:642-645. -/
def pInLatin_Extended_D : PropText :=
  .ranges true [(0xa720, 0xa7ff)]

/-- parser/tokeniser/blocks.hpp:647-650. -/
def pInSyloti_Nagri : PropText :=
  .ranges true [(0xa800, 0xa82f)]

/-- parser/tokeniser/blocks.hpp:652-655. -/
def pInCommon_Indic_Number_Forms : PropText :=
  .ranges true [(0xa830, 0xa83f)]

/-- parser/tokeniser/blocks.hpp:657-660. -/
def pInPhags_pa : PropText :=
  .ranges true [(0xa840, 0xa87f)]

/-- parser/tokeniser/blocks.hpp:662-665. -/
def pInSaurashtra : PropText :=
  .ranges true [(0xa880, 0xa8df)]

/-- parser/tokeniser/blocks.hpp:667-670. -/
def pInDevanagari_Extended : PropText :=
  .ranges true [(0xa8e0, 0xa8ff)]

/-- parser/tokeniser/blocks.hpp:672-675. -/
def pInKayah_Li : PropText :=
  .ranges true [(0xa900, 0xa92f)]

/-- parser/tokeniser/blocks.hpp:677-680. -/
def pInRejang : PropText :=
  .ranges true [(0xa930, 0xa95f)]

/-- parser/tokeniser/blocks.hpp:682-685. -/
def pInHangul_Jamo_Extended_A : PropText :=
  .ranges true [(0xa960, 0xa97f)]

/-- parser/tokeniser/blocks.hpp:687-690. -/
def pInJavanese : PropText :=
  .ranges true [(0xa980, 0xa9df)]

/-- parser/tokeniser/blocks.hpp:692-695. -/
def pInMyanmar_Extended_B : PropText :=
  .ranges true [(0xa9e0, 0xa9ff)]

/-- parser/tokeniser/blocks.hpp:697-700. -/
def pInCham : PropText :=
  .ranges true [(0xaa00, 0xaa5f)]

/-- parser/tokeniser/blocks.hpp:702-705. -/
def pInMyanmar_Extended_A : PropText :=
  .ranges true [(0xaa60, 0xaa7f)]

/-- parser/tokeniser/blocks.hpp:707-710. -/
def pInTai_Viet : PropText :=
  .ranges true [(0xaa80, 0xaadf)]

/-- parser/tokeniser/blocks.hpp:712-715. -/
def pInMeetei_Mayek_Extensions : PropText :=
  .ranges true [(0xaae0, 0xaaff)]

/-- parser/tokeniser/blocks.hpp:717-720. -/
def pInEthiopic_Extended_A : PropText :=
  .ranges true [(0xab00, 0xab2f)]

/-- parser/tokeniser/blocks.hpp:722-725. -/
def pInLatin_Extended_E : PropText :=
  .ranges true [(0xab30, 0xab6f)]

/-- parser/tokeniser/blocks.hpp:727-730. -/
def pInCherokee_Supplement : PropText :=
  .ranges true [(0xab70, 0xabbf)]

/-- parser/tokeniser/blocks.hpp:732-735. -/
def pInMeetei_Mayek : PropText :=
  .ranges true [(0xabc0, 0xabff)]

/-- parser/tokeniser/blocks.hpp:737-740. -/
def pInHangul_Syllables : PropText :=
  .ranges true [(0xac00, 0xd7af)]

/-- parser/tokeniser/blocks.hpp:742-745. -/
def pInHangul_Jamo_Extended_B : PropText :=
  .ranges true [(0xd7b0, 0xd7ff)]

/-- parser/tokeniser/blocks.hpp:747-750. -/
def pInHigh_Surrogates : PropText :=
  .ranges true [(0xd800, 0xdb7f)]

/-- parser/tokeniser/blocks.hpp:752-755. -/
def pInHigh_Private_Use_Surrogates : PropText :=
  .ranges true [(0xdb80, 0xdbff)]

/-- parser/tokeniser/blocks.hpp:757-760. -/
def pInLow_Surrogates : PropText :=
  .ranges true [(0xdc00, 0xdfff)]

/-- parser/tokeniser/blocks.hpp:762-765. -/
def pInPrivate_Use_Area : PropText :=
  .ranges true [(0xe000, 0xf8ff)]

/-- parser/tokeniser/blocks.hpp:767-770. -/
def pInCJK_Compatibility_Ideographs : PropText :=
  .ranges true [(0xf900, 0xfaff)]

/-- parser/tokeniser/blocks.hpp:772-775. -/
def pInAlphabetic_Presentation_Forms : PropText :=
  .ranges true [(0xfb00, 0xfb4f)]

/-- parser/tokeniser/blocks.hpp:777-780. -/
def pInArabic_Presentation_Forms_A : PropText :=
  .ranges true [(0xfb50, 0xfdff)]

/-- parser/tokeniser/blocks.hpp:782-785. -/
def pInVariation_Selectors : PropText :=
  .ranges true [(0xfe00, 0xfe0f)]

/-- parser/tokeniser/blocks.hpp:787-790. -/
def pInVertical_Forms : PropText :=
  .ranges true [(0xfe10, 0xfe1f)]

/-- parser/tokeniser/blocks.hpp:792-795. -/
def pInCombining_Half_Marks : PropText :=
  .ranges true [(0xfe20, 0xfe2f)]

/-- parser/tokeniser/blocks.hpp:797-800. -/
def pInCJK_Compatibility_Forms : PropText :=
  .ranges true [(0xfe30, 0xfe4f)]

/-- parser/tokeniser/blocks.hpp:802-805. -/
def pInSmall_Form_Variants : PropText :=
  .ranges true [(0xfe50, 0xfe6f)]

/-- parser/tokeniser/blocks.hpp:807-810. -/
def pInArabic_Presentation_Forms_B : PropText :=
  .ranges true [(0xfe70, 0xfeff)]

/-- parser/tokeniser/blocks.hpp:812-815. -/
def pInHalfwidth_and_Fullwidth_Forms : PropText :=
  .ranges true [(0xff00, 0xffef)]

/-- parser/tokeniser/blocks.hpp:817-820. -/
def pInSpecials : PropText :=
  .ranges true [(0xfff0, 0xffff)]

/-- parser/tokeniser/blocks.hpp:822-825. -/
def pInLinear_B_Syllabary : PropText :=
  .ranges true [(0x10000, 0x1007f)]

/-- parser/tokeniser/blocks.hpp:827-830. -/
def pInLinear_B_Ideograms : PropText :=
  .ranges true [(0x10080, 0x100ff)]

/-- parser/tokeniser/blocks.hpp:832-835. -/
def pInAegean_Numbers : PropText :=
  .ranges true [(0x10100, 0x1013f)]

/-- parser/tokeniser/blocks.hpp:837-840. -/
def pInAncient_Greek_Numbers : PropText :=
  .ranges true [(0x10140, 0x1018f)]

/-- parser/tokeniser/blocks.hpp:842-845. -/
def pInAncient_Symbols : PropText :=
  .ranges true [(0x10190, 0x101cf)]

/-- parser/tokeniser/blocks.hpp:847-850. -/
def pInPhaistos_Disc : PropText :=
  .ranges true [(0x101d0, 0x101ff)]

/-- parser/tokeniser/blocks.hpp:852-855. -/
def pInLycian : PropText :=
  .ranges true [(0x10280, 0x1029f)]

/-- parser/tokeniser/blocks.hpp:857-860. -/
def pInCarian : PropText :=
  .ranges true [(0x102a0, 0x102df)]

/-- parser/tokeniser/blocks.hpp:862-865. -/
def pInCoptic_Epact_Numbers : PropText :=
  .ranges true [(0x102e0, 0x102ff)]

/-- parser/tokeniser/blocks.hpp:867-870. -/
def pInOld_Italic : PropText :=
  .ranges true [(0x10300, 0x1032f)]

/-- parser/tokeniser/blocks.hpp:872-875. -/
def pInGothic : PropText :=
  .ranges true [(0x10330, 0x1034f)]

/-- parser/tokeniser/blocks.hpp:877-880. -/
def pInOld_Permic : PropText :=
  .ranges true [(0x10350, 0x1037f)]

/-- parser/tokeniser/blocks.hpp:882-885. -/
def pInUgaritic : PropText :=
  .ranges true [(0x10380, 0x1039f)]

/-- parser/tokeniser/blocks.hpp:887-890. -/
def pInOld_Persian : PropText :=
  .ranges true [(0x103a0, 0x103df)]

/-- parser/tokeniser/blocks.hpp:892-895. -/
def pInDeseret : PropText :=
  .ranges true [(0x10400, 0x1044f)]

/-- parser/tokeniser/blocks.hpp:897-900. -/
def pInShavian : PropText :=
  .ranges true [(0x10450, 0x1047f)]

/-- parser/tokeniser/blocks.hpp:902-905. -/
def pInOsmanya : PropText :=
  .ranges true [(0x10480, 0x104af)]

/-- parser/tokeniser/blocks.hpp:907-910. -/
def pInOsage : PropText :=
  .ranges true [(0x104b0, 0x104ff)]

/-- parser/tokeniser/blocks.hpp:912-915. -/
def pInElbasan : PropText :=
  .ranges true [(0x10500, 0x1052f)]

/-- parser/tokeniser/blocks.hpp:917-920. -/
def pInCaucasian_Albanian : PropText :=
  .ranges true [(0x10530, 0x1056f)]

/-- parser/tokeniser/blocks.hpp:922-925. -/
def pInVithkuqi : PropText :=
  .ranges true [(0x10570, 0x105bf)]

/-- parser/tokeniser/blocks.hpp:927-930. -/
def pInTodhri : PropText :=
  .ranges true [(0x105c0, 0x105ff)]

/-- parser/tokeniser/blocks.hpp:932-935. -/
def pInLinear_A : PropText :=
  .ranges true [(0x10600, 0x1077f)]

/-- parser/tokeniser/blocks.hpp:937-940. -/
def pInLatin_Extended_F : PropText :=
  .ranges true [(0x10780, 0x107bf)]

/-- parser/tokeniser/blocks.hpp:942-945. -/
def pInCypriot_Syllabary : PropText :=
  .ranges true [(0x10800, 0x1083f)]

/-- parser/tokeniser/blocks.hpp:947-950. -/
def pInImperial_Aramaic : PropText :=
  .ranges true [(0x10840, 0x1085f)]

/-- parser/tokeniser/blocks.hpp:952-955. -/
def pInPalmyrene : PropText :=
  .ranges true [(0x10860, 0x1087f)]

/-- parser/tokeniser/blocks.hpp:957-960. -/
def pInNabataean : PropText :=
  .ranges true [(0x10880, 0x108af)]

/-- parser/tokeniser/blocks.hpp:962-965. -/
def pInHatran : PropText :=
  .ranges true [(0x108e0, 0x108ff)]

/-- parser/tokeniser/blocks.hpp:967-970. -/
def pInPhoenician : PropText :=
  .ranges true [(0x10900, 0x1091f)]

/-- parser/tokeniser/blocks.hpp:972-975. -/
def pInLydian : PropText :=
  .ranges true [(0x10920, 0x1093f)]

/-- parser/tokeniser/blocks.hpp:977-980. -/
def pInSidetic : PropText :=
  .ranges true [(0x10940, 0x1095f)]

/-- parser/tokeniser/blocks.hpp:982-985. -/
def pInMeroitic_Hieroglyphs : PropText :=
  .ranges true [(0x10980, 0x1099f)]

/-- parser/tokeniser/blocks.hpp:987-990. -/
def pInMeroitic_Cursive : PropText :=
  .ranges true [(0x109a0, 0x109ff)]

/-- parser/tokeniser/blocks.hpp:992-995. -/
def pInKharoshthi : PropText :=
  .ranges true [(0x10a00, 0x10a5f)]

/-- parser/tokeniser/blocks.hpp:997-1000. -/
def pInOld_South_Arabian : PropText :=
  .ranges true [(0x10a60, 0x10a7f)]

/-- parser/tokeniser/blocks.hpp:1002-1005. -/
def pInOld_North_Arabian : PropText :=
  .ranges true [(0x10a80, 0x10a9f)]

/-- parser/tokeniser/blocks.hpp:1007-1010. -/
def pInManichaean : PropText :=
  .ranges true [(0x10ac0, 0x10aff)]

/-- parser/tokeniser/blocks.hpp:1012-1015. -/
def pInAvestan : PropText :=
  .ranges true [(0x10b00, 0x10b3f)]

/-- parser/tokeniser/blocks.hpp:1017-1020. -/
def pInInscriptional_Parthian : PropText :=
  .ranges true [(0x10b40, 0x10b5f)]

/-- parser/tokeniser/blocks.hpp:1022-1025. -/
def pInInscriptional_Pahlavi : PropText :=
  .ranges true [(0x10b60, 0x10b7f)]

/-- parser/tokeniser/blocks.hpp:1027-1030. -/
def pInPsalter_Pahlavi : PropText :=
  .ranges true [(0x10b80, 0x10baf)]

/-- parser/tokeniser/blocks.hpp:1032-1035. -/
def pInOld_Turkic : PropText :=
  .ranges true [(0x10c00, 0x10c4f)]

/-- parser/tokeniser/blocks.hpp:1037-1040. -/
def pInOld_Hungarian : PropText :=
  .ranges true [(0x10c80, 0x10cff)]

/-- parser/tokeniser/blocks.hpp:1042-1045. -/
def pInHanifi_Rohingya : PropText :=
  .ranges true [(0x10d00, 0x10d3f)]

/-- parser/tokeniser/blocks.hpp:1047-1050. -/
def pInGaray : PropText :=
  .ranges true [(0x10d40, 0x10d8f)]

/-- parser/tokeniser/blocks.hpp:1052-1055. -/
def pInRumi_Numeral_Symbols : PropText :=
  .ranges true [(0x10e60, 0x10e7f)]

/-- parser/tokeniser/blocks.hpp:1057-1060. -/
def pInYezidi : PropText :=
  .ranges true [(0x10e80, 0x10ebf)]

/-- parser/tokeniser/blocks.hpp:1062-1065. -/
def pInArabic_Extended_C : PropText :=
  .ranges true [(0x10ec0, 0x10eff)]

/-- parser/tokeniser/blocks.hpp:1067-1070. -/
def pInOld_Sogdian : PropText :=
  .ranges true [(0x10f00, 0x10f2f)]

/-- parser/tokeniser/blocks.hpp:1072-1075. -/
def pInSogdian : PropText :=
  .ranges true [(0x10f30, 0x10f6f)]

/-- parser/tokeniser/blocks.hpp:1077-1080. -/
def pInOld_Uyghur : PropText :=
  .ranges true [(0x10f70, 0x10faf)]

/-- parser/tokeniser/blocks.hpp:1082-1085. -/
def pInChorasmian : PropText :=
  .ranges true [(0x10fb0, 0x10fdf)]

/-- parser/tokeniser/blocks.hpp:1087-1090. -/
def pInElymaic : PropText :=
  .ranges true [(0x10fe0, 0x10fff)]

/-- parser/tokeniser/blocks.hpp:1092-1095. -/
def pInBrahmi : PropText :=
  .ranges true [(0x11000, 0x1107f)]

/-- parser/tokeniser/blocks.hpp:1097-1100. -/
def pInKaithi : PropText :=
  .ranges true [(0x11080, 0x110cf)]

/-- parser/tokeniser/blocks.hpp:1102-1105. -/
def pInSora_Sompeng : PropText :=
  .ranges true [(0x110d0, 0x110ff)]

/-- parser/tokeniser/blocks.hpp:1107-1110. -/
def pInChakma : PropText :=
  .ranges true [(0x11100, 0x1114f)]

/-- parser/tokeniser/blocks.hpp:1112-1115. -/
def pInMahajani : PropText :=
  .ranges true [(0x11150, 0x1117f)]

/-- parser/tokeniser/blocks.hpp:1117-1120. -/
def pInSharada : PropText :=
  .ranges true [(0x11180, 0x111df)]

/-- parser/tokeniser/blocks.hpp:1122-1125. -/
def pInSinhala_Archaic_Numbers : PropText :=
  .ranges true [(0x111e0, 0x111ff)]

/-- parser/tokeniser/blocks.hpp:1127-1130. -/
def pInKhojki : PropText :=
  .ranges true [(0x11200, 0x1124f)]

/-- parser/tokeniser/blocks.hpp:1132-1135. -/
def pInMultani : PropText :=
  .ranges true [(0x11280, 0x112af)]

/-- parser/tokeniser/blocks.hpp:1137-1140. -/
def pInKhudawadi : PropText :=
  .ranges true [(0x112b0, 0x112ff)]

/-- parser/tokeniser/blocks.hpp:1142-1145. -/
def pInGrantha : PropText :=
  .ranges true [(0x11300, 0x1137f)]

/-- parser/tokeniser/blocks.hpp:1147-1150. -/
def pInTulu_Tigalari : PropText :=
  .ranges true [(0x11380, 0x113ff)]

/-- parser/tokeniser/blocks.hpp:1152-1155. -/
def pInNewa : PropText :=
  .ranges true [(0x11400, 0x1147f)]

/-- parser/tokeniser/blocks.hpp:1157-1160. -/
def pInTirhuta : PropText :=
  .ranges true [(0x11480, 0x114df)]

/-- parser/tokeniser/blocks.hpp:1162-1165. -/
def pInSiddham : PropText :=
  .ranges true [(0x11580, 0x115ff)]

/-- parser/tokeniser/blocks.hpp:1167-1170. -/
def pInModi : PropText :=
  .ranges true [(0x11600, 0x1165f)]

/-- parser/tokeniser/blocks.hpp:1172-1175. -/
def pInMongolian_Supplement : PropText :=
  .ranges true [(0x11660, 0x1167f)]

/-- parser/tokeniser/blocks.hpp:1177-1180. -/
def pInTakri : PropText :=
  .ranges true [(0x11680, 0x116cf)]

/-- parser/tokeniser/blocks.hpp:1182-1185. -/
def pInMyanmar_Extended_C : PropText :=
  .ranges true [(0x116d0, 0x116ff)]

/-- parser/tokeniser/blocks.hpp:1187-1190. -/
def pInAhom : PropText :=
  .ranges true [(0x11700, 0x1174f)]

/-- parser/tokeniser/blocks.hpp:1192-1195. -/
def pInDogra : PropText :=
  .ranges true [(0x11800, 0x1184f)]

/-- parser/tokeniser/blocks.hpp:1197-1200. -/
def pInWarang_Citi : PropText :=
  .ranges true [(0x118a0, 0x118ff)]

/-- parser/tokeniser/blocks.hpp:1202-1205. -/
def pInDives_Akuru : PropText :=
  .ranges true [(0x11900, 0x1195f)]

/-- parser/tokeniser/blocks.hpp:1207-1210. -/
def pInNandinagari : PropText :=
  .ranges true [(0x119a0, 0x119ff)]

/-- parser/tokeniser/blocks.hpp:1212-1215. -/
def pInZanabazar_Square : PropText :=
  .ranges true [(0x11a00, 0x11a4f)]

/-- parser/tokeniser/blocks.hpp:1217-1220. -/
def pInSoyombo : PropText :=
  .ranges true [(0x11a50, 0x11aaf)]

/-- parser/tokeniser/blocks.hpp:1222-1225. -/
def pInUnified_Canadian_Aboriginal_Syllabics_Extended_A : PropText :=
  .ranges true [(0x11ab0, 0x11abf)]

/-- parser/tokeniser/blocks.hpp:1227-1230. -/
def pInPau_Cin_Hau : PropText :=
  .ranges true [(0x11ac0, 0x11aff)]

/-- parser/tokeniser/blocks.hpp:1232-1235. -/
def pInDevanagari_Extended_A : PropText :=
  .ranges true [(0x11b00, 0x11b5f)]

/-- parser/tokeniser/blocks.hpp:1237-1240. -/
def pInSharada_Supplement : PropText :=
  .ranges true [(0x11b60, 0x11b7f)]

/-- parser/tokeniser/blocks.hpp:1242-1245. -/
def pInSunuwar : PropText :=
  .ranges true [(0x11bc0, 0x11bff)]

/-- parser/tokeniser/blocks.hpp:1247-1250. -/
def pInBhaiksuki : PropText :=
  .ranges true [(0x11c00, 0x11c6f)]

/-- parser/tokeniser/blocks.hpp:1252-1255. -/
def pInMarchen : PropText :=
  .ranges true [(0x11c70, 0x11cbf)]

/-- parser/tokeniser/blocks.hpp:1257-1260. -/
def pInMasaram_Gondi : PropText :=
  .ranges true [(0x11d00, 0x11d5f)]

/-- parser/tokeniser/blocks.hpp:1262-1265. -/
def pInGunjala_Gondi : PropText :=
  .ranges true [(0x11d60, 0x11daf)]

/-- parser/tokeniser/blocks.hpp:1267-1270. -/
def pInTolong_Siki : PropText :=
  .ranges true [(0x11db0, 0x11def)]

/-- parser/tokeniser/blocks.hpp:1272-1275. -/
def pInMakasar : PropText :=
  .ranges true [(0x11ee0, 0x11eff)]

/-- parser/tokeniser/blocks.hpp:1277-1280. -/
def pInKawi : PropText :=
  .ranges true [(0x11f00, 0x11f5f)]

/-- parser/tokeniser/blocks.hpp:1282-1285. -/
def pInLisu_Supplement : PropText :=
  .ranges true [(0x11fb0, 0x11fbf)]

/-- parser/tokeniser/blocks.hpp:1287-1290. -/
def pInTamil_Supplement : PropText :=
  .ranges true [(0x11fc0, 0x11fff)]

/-- parser/tokeniser/blocks.hpp:1292-1295. -/
def pInCuneiform : PropText :=
  .ranges true [(0x12000, 0x123ff)]

/-- parser/tokeniser/blocks.hpp:1297-1300. -/
def pInCuneiform_Numbers_and_Punctuation : PropText :=
  .ranges true [(0x12400, 0x1247f)]

/-- parser/tokeniser/blocks.hpp:1302-1305. -/
def pInEarly_Dynastic_Cuneiform : PropText :=
  .ranges true [(0x12480, 0x1254f)]

/-- parser/tokeniser/blocks.hpp:1307-1310. -/
def pInCypro_Minoan : PropText :=
  .ranges true [(0x12f90, 0x12fff)]

/-- parser/tokeniser/blocks.hpp:1312-1315. -/
def pInEgyptian_Hieroglyphs : PropText :=
  .ranges true [(0x13000, 0x1342f)]

/-- parser/tokeniser/blocks.hpp:1317-1320. -/
def pInEgyptian_Hieroglyph_Format_Controls : PropText :=
  .ranges true [(0x13430, 0x1345f)]

/-- parser/tokeniser/blocks.hpp:1322-1325. -/
def pInEgyptian_Hieroglyphs_Extended_A : PropText :=
  .ranges true [(0x13460, 0x143ff)]

/-- parser/tokeniser/blocks.hpp:1327-1330. -/
def pInAnatolian_Hieroglyphs : PropText :=
  .ranges true [(0x14400, 0x1467f)]

/-- parser/tokeniser/blocks.hpp:1332-1335. -/
def pInGurung_Khema : PropText :=
  .ranges true [(0x16100, 0x1613f)]

/-- parser/tokeniser/blocks.hpp:1337-1340. -/
def pInBamum_Supplement : PropText :=
  .ranges true [(0x16800, 0x16a3f)]

/-- parser/tokeniser/blocks.hpp:1342-1345. -/
def pInMro : PropText :=
  .ranges true [(0x16a40, 0x16a6f)]

/-- parser/tokeniser/blocks.hpp:1347-1350. -/
def pInTangsa : PropText :=
  .ranges true [(0x16a70, 0x16acf)]

/-- parser/tokeniser/blocks.hpp:1352-1355. -/
def pInBassa_Vah : PropText :=
  .ranges true [(0x16ad0, 0x16aff)]

/-- parser/tokeniser/blocks.hpp:1357-1360. -/
def pInPahawh_Hmong : PropText :=
  .ranges true [(0x16b00, 0x16b8f)]

/-- parser/tokeniser/blocks.hpp:1362-1365. -/
def pInKirat_Rai : PropText :=
  .ranges true [(0x16d40, 0x16d7f)]

/-- parser/tokeniser/blocks.hpp:1367-1370. -/
def pInMedefaidrin : PropText :=
  .ranges true [(0x16e40, 0x16e9f)]

/-- parser/tokeniser/blocks.hpp:1372-1375. -/
def pInBeria_Erfe : PropText :=
  .ranges true [(0x16ea0, 0x16edf)]

/-- parser/tokeniser/blocks.hpp:1377-1380. -/
def pInMiao : PropText :=
  .ranges true [(0x16f00, 0x16f9f)]

/-- parser/tokeniser/blocks.hpp:1382-1385. -/
def pInIdeographic_Symbols_and_Punctuation : PropText :=
  .ranges true [(0x16fe0, 0x16fff)]

/-- parser/tokeniser/blocks.hpp:1387-1390. -/
def pInTangut : PropText :=
  .ranges true [(0x17000, 0x187ff)]

/-- parser/tokeniser/blocks.hpp:1392-1395. -/
def pInTangut_Components : PropText :=
  .ranges true [(0x18800, 0x18aff)]

/-- parser/tokeniser/blocks.hpp:1397-1400. -/
def pInKhitan_Small_Script : PropText :=
  .ranges true [(0x18b00, 0x18cff)]

/-- parser/tokeniser/blocks.hpp:1402-1405. -/
def pInTangut_Supplement : PropText :=
  .ranges true [(0x18d00, 0x18d7f)]

/-- parser/tokeniser/blocks.hpp:1407-1410. -/
def pInTangut_Components_Supplement : PropText :=
  .ranges true [(0x18d80, 0x18dff)]

/-- parser/tokeniser/blocks.hpp:1412-1415. -/
def pInKana_Extended_B : PropText :=
  .ranges true [(0x1aff0, 0x1afff)]

/-- parser/tokeniser/blocks.hpp:1417-1420. -/
def pInKana_Supplement : PropText :=
  .ranges true [(0x1b000, 0x1b0ff)]

/-- parser/tokeniser/blocks.hpp:1422-1425. -/
def pInKana_Extended_A : PropText :=
  .ranges true [(0x1b100, 0x1b12f)]

/-- parser/tokeniser/blocks.hpp:1427-1430. -/
def pInSmall_Kana_Extension : PropText :=
  .ranges true [(0x1b130, 0x1b16f)]

/-- parser/tokeniser/blocks.hpp:1432-1435. -/
def pInNushu : PropText :=
  .ranges true [(0x1b170, 0x1b2ff)]

/-- parser/tokeniser/blocks.hpp:1437-1440. -/
def pInDuployan : PropText :=
  .ranges true [(0x1bc00, 0x1bc9f)]

/-- parser/tokeniser/blocks.hpp:1442-1445. -/
def pInShorthand_Format_Controls : PropText :=
  .ranges true [(0x1bca0, 0x1bcaf)]

/-- parser/tokeniser/blocks.hpp:1447-1450. -/
def pInSymbols_for_Legacy_Computing_Supplement : PropText :=
  .ranges true [(0x1cc00, 0x1cebf)]

/-- parser/tokeniser/blocks.hpp:1452-1455. -/
def pInMiscellaneous_Symbols_Supplement : PropText :=
  .ranges true [(0x1cec0, 0x1ceff)]

/-- parser/tokeniser/blocks.hpp:1457-1460. -/
def pInZnamenny_Musical_Notation : PropText :=
  .ranges true [(0x1cf00, 0x1cfcf)]

/-- parser/tokeniser/blocks.hpp:1462-1465. -/
def pInByzantine_Musical_Symbols : PropText :=
  .ranges true [(0x1d000, 0x1d0ff)]

/-- parser/tokeniser/blocks.hpp:1467-1470. -/
def pInMusical_Symbols : PropText :=
  .ranges true [(0x1d100, 0x1d1ff)]

/-- parser/tokeniser/blocks.hpp:1472-1475. -/
def pInAncient_Greek_Musical_Notation : PropText :=
  .ranges true [(0x1d200, 0x1d24f)]

/-- parser/tokeniser/blocks.hpp:1477-1480. -/
def pInKaktovik_Numerals : PropText :=
  .ranges true [(0x1d2c0, 0x1d2df)]

/-- parser/tokeniser/blocks.hpp:1482-1485. -/
def pInMayan_Numerals : PropText :=
  .ranges true [(0x1d2e0, 0x1d2ff)]

/-- parser/tokeniser/blocks.hpp:1487-1490. -/
def pInTai_Xuan_Jing_Symbols : PropText :=
  .ranges true [(0x1d300, 0x1d35f)]

/-- parser/tokeniser/blocks.hpp:1492-1495. -/
def pInCounting_Rod_Numerals : PropText :=
  .ranges true [(0x1d360, 0x1d37f)]

/-- parser/tokeniser/blocks.hpp:1497-1500. -/
def pInMathematical_Alphanumeric_Symbols : PropText :=
  .ranges true [(0x1d400, 0x1d7ff)]

/-- parser/tokeniser/blocks.hpp:1502-1505. -/
def pInSutton_SignWriting : PropText :=
  .ranges true [(0x1d800, 0x1daaf)]

/-- parser/tokeniser/blocks.hpp:1507-1510. -/
def pInLatin_Extended_G : PropText :=
  .ranges true [(0x1df00, 0x1dfff)]

/-- parser/tokeniser/blocks.hpp:1512-1515. -/
def pInGlagolitic_Supplement : PropText :=
  .ranges true [(0x1e000, 0x1e02f)]

/-- parser/tokeniser/blocks.hpp:1517-1520. -/
def pInCyrillic_Extended_D : PropText :=
  .ranges true [(0x1e030, 0x1e08f)]

/-- parser/tokeniser/blocks.hpp:1522-1525. -/
def pInNyiakeng_Puachue_Hmong : PropText :=
  .ranges true [(0x1e100, 0x1e14f)]

/-- parser/tokeniser/blocks.hpp:1527-1530. -/
def pInToto : PropText :=
  .ranges true [(0x1e290, 0x1e2bf)]

/-- parser/tokeniser/blocks.hpp:1532-1535. -/
def pInWancho : PropText :=
  .ranges true [(0x1e2c0, 0x1e2ff)]

/-- parser/tokeniser/blocks.hpp:1537-1540. -/
def pInNag_Mundari : PropText :=
  .ranges true [(0x1e4d0, 0x1e4ff)]

/-- parser/tokeniser/blocks.hpp:1542-1545. -/
def pInOl_Onal : PropText :=
  .ranges true [(0x1e5d0, 0x1e5ff)]

/-- parser/tokeniser/blocks.hpp:1547-1550. -/
def pInTai_Yo : PropText :=
  .ranges true [(0x1e6c0, 0x1e6ff)]

/-- parser/tokeniser/blocks.hpp:1552-1555. -/
def pInEthiopic_Extended_B : PropText :=
  .ranges true [(0x1e7e0, 0x1e7ff)]

/-- parser/tokeniser/blocks.hpp:1557-1560. -/
def pInMende_Kikakui : PropText :=
  .ranges true [(0x1e800, 0x1e8df)]

/-- parser/tokeniser/blocks.hpp:1562-1565. -/
def pInAdlam : PropText :=
  .ranges true [(0x1e900, 0x1e95f)]

/-- parser/tokeniser/blocks.hpp:1567-1570. -/
def pInIndic_Siyaq_Numbers : PropText :=
  .ranges true [(0x1ec70, 0x1ecbf)]

/-- parser/tokeniser/blocks.hpp:1572-1575. -/
def pInOttoman_Siyaq_Numbers : PropText :=
  .ranges true [(0x1ed00, 0x1ed4f)]

/-- parser/tokeniser/blocks.hpp:1577-1580. -/
def pInArabic_Mathematical_Alphabetic_Symbols : PropText :=
  .ranges true [(0x1ee00, 0x1eeff)]

/-- parser/tokeniser/blocks.hpp:1582-1585. -/
def pInMahjong_Tiles : PropText :=
  .ranges true [(0x1f000, 0x1f02f)]

/-- parser/tokeniser/blocks.hpp:1587-1590. -/
def pInDomino_Tiles : PropText :=
  .ranges true [(0x1f030, 0x1f09f)]

/-- parser/tokeniser/blocks.hpp:1592-1595. -/
def pInPlaying_Cards : PropText :=
  .ranges true [(0x1f0a0, 0x1f0ff)]

/-- parser/tokeniser/blocks.hpp:1597-1600. -/
def pInEnclosed_Alphanumeric_Supplement : PropText :=
  .ranges true [(0x1f100, 0x1f1ff)]

/-- parser/tokeniser/blocks.hpp:1602-1605. -/
def pInEnclosed_Ideographic_Supplement : PropText :=
  .ranges true [(0x1f200, 0x1f2ff)]

/-- parser/tokeniser/blocks.hpp:1607-1610. -/
def pInMiscellaneous_Symbols_and_Pictographs : PropText :=
  .ranges true [(0x1f300, 0x1f5ff)]

/-- parser/tokeniser/blocks.hpp:1612-1615. -/
def pInEmoticons : PropText :=
  .ranges true [(0x1f600, 0x1f64f)]

/-- parser/tokeniser/blocks.hpp:1617-1620. -/
def pInOrnamental_Dingbats : PropText :=
  .ranges true [(0x1f650, 0x1f67f)]

/-- parser/tokeniser/blocks.hpp:1622-1625. -/
def pInTransport_and_Map_Symbols : PropText :=
  .ranges true [(0x1f680, 0x1f6ff)]

/-- parser/tokeniser/blocks.hpp:1627-1630. -/
def pInAlchemical_Symbols : PropText :=
  .ranges true [(0x1f700, 0x1f77f)]

/-- parser/tokeniser/blocks.hpp:1632-1635. -/
def pInGeometric_Shapes_Extended : PropText :=
  .ranges true [(0x1f780, 0x1f7ff)]

/-- parser/tokeniser/blocks.hpp:1637-1640. -/
def pInSupplemental_Arrows_C : PropText :=
  .ranges true [(0x1f800, 0x1f8ff)]

/-- parser/tokeniser/blocks.hpp:1642-1645. -/
def pInSupplemental_Symbols_and_Pictographs : PropText :=
  .ranges true [(0x1f900, 0x1f9ff)]

/-- parser/tokeniser/blocks.hpp:1647-1650. -/
def pInChess_Symbols : PropText :=
  .ranges true [(0x1fa00, 0x1fa6f)]

/-- parser/tokeniser/blocks.hpp:1652-1655. -/
def pInSymbols_and_Pictographs_Extended_A : PropText :=
  .ranges true [(0x1fa70, 0x1faff)]

/-- parser/tokeniser/blocks.hpp:1657-1660. -/
def pInSymbols_for_Legacy_Computing : PropText :=
  .ranges true [(0x1fb00, 0x1fbff)]

/-- parser/tokeniser/blocks.hpp:1662-1665. -/
def pInCJK_Unified_Ideographs_Extension_B : PropText :=
  .ranges true [(0x20000, 0x2a6df)]

/-- parser/tokeniser/blocks.hpp:1667-1670. -/
def pInCJK_Unified_Ideographs_Extension_C : PropText :=
  .ranges true [(0x2a700, 0x2b73f)]

/-- parser/tokeniser/blocks.hpp:1672-1675. -/
def pInCJK_Unified_Ideographs_Extension_D : PropText :=
  .ranges true [(0x2b740, 0x2b81f)]

/-- parser/tokeniser/blocks.hpp:1677-1680. -/
def pInCJK_Unified_Ideographs_Extension_E : PropText :=
  .ranges true [(0x2b820, 0x2ceaf)]

/-- parser/tokeniser/blocks.hpp:1682-1685. -/
def pInCJK_Unified_Ideographs_Extension_F : PropText :=
  .ranges true [(0x2ceb0, 0x2ebef)]

/-- parser/tokeniser/blocks.hpp:1687-1690. -/
def pInCJK_Unified_Ideographs_Extension_I : PropText :=
  .ranges true [(0x2ebf0, 0x2ee5f)]

/-- parser/tokeniser/blocks.hpp:1692-1695. -/
def pInCJK_Compatibility_Ideographs_Supplement : PropText :=
  .ranges true [(0x2f800, 0x2fa1f)]

/-- parser/tokeniser/blocks.hpp:1697-1700. -/
def pInCJK_Unified_Ideographs_Extension_G : PropText :=
  .ranges true [(0x30000, 0x3134f)]

/-- parser/tokeniser/blocks.hpp:1702-1705. -/
def pInCJK_Unified_Ideographs_Extension_H : PropText :=
  .ranges true [(0x31350, 0x323af)]

/-- parser/tokeniser/blocks.hpp:1707-1710. -/
def pInCJK_Unified_Ideographs_Extension_J : PropText :=
  .ranges true [(0x323b0, 0x3347f)]

/-- parser/tokeniser/blocks.hpp:1712-1715. -/
def pInTags : PropText :=
  .ranges true [(0xe0000, 0xe007f)]

/-- parser/tokeniser/blocks.hpp:1717-1720. -/
def pInVariation_Selectors_Supplement : PropText :=
  .ranges true [(0xe0100, 0xe01ef)]

/-- parser/tokeniser/blocks.hpp:1722-1725. -/
def pInSupplementary_Private_Use_Area_A : PropText :=
  .ranges true [(0xf0000, 0xfffff)]

/-- parser/tokeniser/blocks.hpp:1727-1730. -/
def pInSupplementary_Private_Use_Area_B : PropText :=
  .ranges true [(0x100000, 0x10ffff)]

/-- parser/tokeniser/scripts.hpp:2-5. -/
def pIsAdlam : PropText :=
  .ranges false [(0x1e900, 0x1e94b), (0x1e950, 0x1e959), (0x1e95e, 0x1e95e), (0x1e95f, 0x1e95f)]

/-- parser/tokeniser/scripts.hpp:7-10. -/
def pIsAhom : PropText :=
  .ranges false [(0x11700, 0x1171a), (0x1171d, 0x1172b), (0x11730, 0x11746)]

/-- parser/tokeniser/scripts.hpp:12-15. -/
def pIsAnatolian_Hieroglyphs : PropText :=
  .ranges false [(0x14400, 0x14646)]

/-- parser/tokeniser/scripts.hpp:17-33. -/
def pIsArabic : PropText :=
  .ranges false [(0x600, 0x604), (0x606, 0x60b), (0x60d, 0x61a), (0x61c, 0x61e), (0x620, 0x63f), (0x641, 0x64a),
    (0x656, 0x66f), (0x671, 0x6dc), (0x6de, 0x6ff), (0x750, 0x77f), (0x870, 0x891), (0x897, 0x8e1), (0x8e3, 0x8ff),
    (0xfb50, 0xfd3d), (0xfd40, 0xfdcf), (0xfdf0, 0xfdff), (0xfe70, 0xfe74), (0xfe76, 0xfefc), (0x10e60, 0x10e7e),
    (0x10ec2, 0x10ec7), (0x10ed0, 0x10ed8), (0x10efa, 0x10eff), (0x1ee00, 0x1ee03), (0x1ee05, 0x1ee1f),
    (0x1ee21, 0x1ee21), (0x1ee22, 0x1ee22), (0x1ee24, 0x1ee24), (0x1ee27, 0x1ee27), (0x1ee29, 0x1ee32),
    (0x1ee34, 0x1ee37), (0x1ee39, 0x1ee39), (0x1ee3b, 0x1ee3b), (0x1ee42, 0x1ee42), (0x1ee47, 0x1ee47),
    (0x1ee49, 0x1ee49), (0x1ee4b, 0x1ee4b), (0x1ee4d, 0x1ee4f), (0x1ee51, 0x1ee51), (0x1ee52, 0x1ee52),
    (0x1ee54, 0x1ee54), (0x1ee57, 0x1ee57), (0x1ee59, 0x1ee59), (0x1ee5b, 0x1ee5b), (0x1ee5d, 0x1ee5d),
    (0x1ee5f, 0x1ee5f), (0x1ee61, 0x1ee61), (0x1ee62, 0x1ee62), (0x1ee64, 0x1ee64), (0x1ee67, 0x1ee6a),
    (0x1ee6c, 0x1ee72), (0x1ee74, 0x1ee77), (0x1ee79, 0x1ee7c), (0x1ee7e, 0x1ee7e), (0x1ee80, 0x1ee89),
    (0x1ee8b, 0x1ee9b), (0x1eea1, 0x1eea3), (0x1eea5, 0x1eea9), (0x1eeab, 0x1eebb), (0x1eef0, 0x1eef0),
    (0x1eef1, 0x1eef1)]

/-- parser/tokeniser/scripts.hpp:35-38. -/
def pIsArmenian : PropText :=
  .ranges false [(0x531, 0x556), (0x559, 0x58a), (0x58d, 0x58f), (0xfb13, 0xfb17)]

/-- parser/tokeniser/scripts.hpp:40-43. -/
def pIsAvestan : PropText :=
  .ranges false [(0x10b00, 0x10b35), (0x10b39, 0x10b3f)]

/-- parser/tokeniser/scripts.hpp:45-48. -/
def pIsBalinese : PropText :=
  .ranges false [(0x1b00, 0x1b4c), (0x1b4e, 0x1b7f)]

/-- parser/tokeniser/scripts.hpp:50-53. -/
def pIsBamum : PropText :=
  .ranges false [(0xa6a0, 0xa6f7), (0x16800, 0x16a38)]

/-- parser/tokeniser/scripts.hpp:55-58. -/
def pIsBassa_Vah : PropText :=
  .ranges false [(0x16ad0, 0x16aed), (0x16af0, 0x16af5)]

/-- parser/tokeniser/scripts.hpp:60-63. -/
def pIsBatak : PropText :=
  .ranges false [(0x1bc0, 0x1bf3), (0x1bfc, 0x1bff)]

/-- parser/tokeniser/scripts.hpp:65-70. -/
def pIsBengali : PropText :=
  .ranges false [(0x980, 0x983), (0x985, 0x98c), (0x98f, 0x98f), (0x990, 0x990), (0x993, 0x9a8), (0x9aa, 0x9b0),
    (0x9b2, 0x9b2), (0x9b6, 0x9b9), (0x9bc, 0x9c4), (0x9c7, 0x9c7), (0x9c8, 0x9c8), (0x9cb, 0x9ce), (0x9d7, 0x9d7),
    (0x9dc, 0x9dc), (0x9dd, 0x9dd), (0x9df, 0x9e3), (0x9e6, 0x9fe)]

/-- parser/tokeniser/scripts.hpp:72-75. -/
def pIsBeria_Erfe : PropText :=
  .ranges false [(0x16ea0, 0x16eb8), (0x16ebb, 0x16ed3)]

/-- parser/tokeniser/scripts.hpp:77-81. -/
def pIsBhaiksuki : PropText :=
  .ranges false [(0x11c00, 0x11c08), (0x11c0a, 0x11c36), (0x11c38, 0x11c45), (0x11c50, 0x11c6c)]

/-- parser/tokeniser/scripts.hpp:83-86. -/
def pIsBopomofo : PropText :=
  .ranges false [(0x2ea, 0x2ea), (0x2eb, 0x2eb), (0x3105, 0x312f), (0x31a0, 0x31bf)]

/-- parser/tokeniser/scripts.hpp:88-91. -/
def pIsBrahmi : PropText :=
  .ranges false [(0x11000, 0x1104d), (0x11052, 0x11075), (0x1107f, 0x1107f)]

/-- parser/tokeniser/scripts.hpp:93-96. -/
def pIsBraille : PropText :=
  .ranges false [(0x2800, 0x28ff)]

/-- parser/tokeniser/scripts.hpp:98-101. -/
def pIsBuginese : PropText :=
  .ranges false [(0x1a00, 0x1a1b), (0x1a1e, 0x1a1e), (0x1a1f, 0x1a1f)]

/-- parser/tokeniser/scripts.hpp:103-106. -/
def pIsBuhid : PropText :=
  .ranges false [(0x1740, 0x1753)]

/-- parser/tokeniser/scripts.hpp:108-111. -/
def pIsCanadian_Aboriginal : PropText :=
  .ranges false [(0x1400, 0x167f), (0x18b0, 0x18f5), (0x11ab0, 0x11abf)]

/-- parser/tokeniser/scripts.hpp:113-116. -/
def pIsCarian : PropText :=
  .ranges false [(0x102a0, 0x102d0)]

/-- parser/tokeniser/scripts.hpp:118-121. -/
def pIsCaucasian_Albanian : PropText :=
  .ranges false [(0x10530, 0x10563), (0x1056f, 0x1056f)]

/-- parser/tokeniser/scripts.hpp:123-126. -/
def pIsChakma : PropText :=
  .ranges false [(0x11100, 0x11134), (0x11136, 0x11147)]

/-- parser/tokeniser/scripts.hpp:128-132. -/
def pIsCham : PropText :=
  .ranges false [(0xaa00, 0xaa36), (0xaa40, 0xaa4d), (0xaa50, 0xaa59), (0xaa5c, 0xaa5f)]

/-- parser/tokeniser/scripts.hpp:134-137. -/
def pIsCherokee : PropText :=
  .ranges false [(0x13a0, 0x13f5), (0x13f8, 0x13fd), (0xab70, 0xabbf)]

/-- parser/tokeniser/scripts.hpp:139-142. -/
def pIsChorasmian : PropText :=
  .ranges false [(0x10fb0, 0x10fcb)]

/-- parser/tokeniser/scripts.hpp:144-191. -/
def pIsCommon : PropText :=
  .ranges false [(0x0, 0x40), (0x5b, 0x60), (0x7b, 0xa9), (0xab, 0xb9), (0xbb, 0xbf), (0xd7, 0xd7), (0xf7, 0xf7),
    (0x2b9, 0x2df), (0x2e5, 0x2e9), (0x2ec, 0x2ff), (0x374, 0x374), (0x37e, 0x37e), (0x385, 0x385), (0x387, 0x387),
    (0x605, 0x605), (0x60c, 0x60c), (0x61b, 0x61b), (0x61f, 0x61f), (0x640, 0x640), (0x6dd, 0x6dd), (0x8e2, 0x8e2),
    (0x964, 0x964), (0x965, 0x965), (0xe3f, 0xe3f), (0xfd5, 0xfd8), (0x10fb, 0x10fb), (0x16eb, 0x16ed),
    (0x1735, 0x1735), (0x1736, 0x1736), (0x1802, 0x1802), (0x1803, 0x1803), (0x1805, 0x1805), (0x1cd3, 0x1cd3),
    (0x1ce1, 0x1ce1), (0x1ce9, 0x1cec), (0x1cee, 0x1cf3), (0x1cf5, 0x1cf7), (0x1cfa, 0x1cfa), (0x2000, 0x200b),
    (0x200e, 0x2064), (0x2066, 0x2070), (0x2074, 0x207e), (0x2080, 0x208e), (0x20a0, 0x20c1), (0x2100, 0x2125),
    (0x2127, 0x2129), (0x212c, 0x2131), (0x2133, 0x214d), (0x214f, 0x215f), (0x2189, 0x218b), (0x2190, 0x2429),
    (0x2440, 0x244a), (0x2460, 0x27ff), (0x2900, 0x2b73), (0x2b76, 0x2bff), (0x2e00, 0x2e5d), (0x2ff0, 0x3004),
    (0x3006, 0x3006), (0x3008, 0x3020), (0x3030, 0x3037), (0x303c, 0x303f), (0x309b, 0x309b), (0x309c, 0x309c),
    (0x30a0, 0x30a0), (0x30fb, 0x30fb), (0x30fc, 0x30fc), (0x3190, 0x319f), (0x31c0, 0x31e5), (0x31ef, 0x31ef),
    (0x3220, 0x325f), (0x327f, 0x32cf), (0x32ff, 0x32ff), (0x3358, 0x33ff), (0x4dc0, 0x4dff), (0xa700, 0xa721),
    (0xa788, 0xa78a), (0xa830, 0xa839), (0xa92e, 0xa92e), (0xa9cf, 0xa9cf), (0xab5b, 0xab5b), (0xab6a, 0xab6a),
    (0xab6b, 0xab6b), (0xfd3e, 0xfd3e), (0xfd3f, 0xfd3f), (0xfe10, 0xfe19), (0xfe30, 0xfe52), (0xfe54, 0xfe66),
    (0xfe68, 0xfe6b), (0xfeff, 0xfeff), (0xff01, 0xff20), (0xff3b, 0xff40), (0xff5b, 0xff65), (0xff70, 0xff70),
    (0xff9e, 0xff9e), (0xff9f, 0xff9f), (0xffe0, 0xffe6), (0xffe8, 0xffee), (0xfff9, 0xfffd), (0x10100, 0x10102),
    (0x10107, 0x10133), (0x10137, 0x1013f), (0x10190, 0x1019c), (0x101d0, 0x101fc), (0x102e1, 0x102fb),
    (0x1bca0, 0x1bca3), (0x1cc00, 0x1ccfc), (0x1cd00, 0x1ceb3), (0x1ceba, 0x1ced0), (0x1cee0, 0x1cef0),
    (0x1cf50, 0x1cfc3), (0x1d000, 0x1d0f5), (0x1d100, 0x1d126), (0x1d129, 0x1d166), (0x1d16a, 0x1d17a),
    (0x1d183, 0x1d183), (0x1d184, 0x1d184), (0x1d18c, 0x1d1a9), (0x1d1ae, 0x1d1ea), (0x1d2c0, 0x1d2d3),
    (0x1d2e0, 0x1d2f3), (0x1d300, 0x1d356), (0x1d360, 0x1d378), (0x1d400, 0x1d454), (0x1d456, 0x1d49c),
    (0x1d49e, 0x1d49e), (0x1d49f, 0x1d49f), (0x1d4a2, 0x1d4a2), (0x1d4a5, 0x1d4a5), (0x1d4a6, 0x1d4a6),
    (0x1d4a9, 0x1d4ac), (0x1d4ae, 0x1d4b9), (0x1d4bb, 0x1d4bb), (0x1d4bd, 0x1d4c3), (0x1d4c5, 0x1d505),
    (0x1d507, 0x1d50a), (0x1d50d, 0x1d514), (0x1d516, 0x1d51c), (0x1d51e, 0x1d539), (0x1d53b, 0x1d53e),
    (0x1d540, 0x1d544), (0x1d546, 0x1d546), (0x1d54a, 0x1d550), (0x1d552, 0x1d6a5), (0x1d6a8, 0x1d7cb),
    (0x1d7ce, 0x1d7ff), (0x1ec71, 0x1ecb4), (0x1ed01, 0x1ed3d), (0x1f000, 0x1f02b), (0x1f030, 0x1f093),
    (0x1f0a0, 0x1f0ae), (0x1f0b1, 0x1f0bf), (0x1f0c1, 0x1f0cf), (0x1f0d1, 0x1f0f5), (0x1f100, 0x1f1ad),
    (0x1f1e6, 0x1f1ff), (0x1f201, 0x1f201), (0x1f202, 0x1f202), (0x1f210, 0x1f23b), (0x1f240, 0x1f248),
    (0x1f250, 0x1f250), (0x1f251, 0x1f251), (0x1f260, 0x1f265), (0x1f300, 0x1f6d8), (0x1f6dc, 0x1f6ec),
    (0x1f6f0, 0x1f6fc), (0x1f700, 0x1f7d9), (0x1f7e0, 0x1f7eb), (0x1f7f0, 0x1f7f0), (0x1f800, 0x1f80b),
    (0x1f810, 0x1f847), (0x1f850, 0x1f859), (0x1f860, 0x1f887), (0x1f890, 0x1f8ad), (0x1f8b0, 0x1f8bb),
    (0x1f8c0, 0x1f8c0), (0x1f8c1, 0x1f8c1), (0x1f8d0, 0x1f8d8), (0x1f900, 0x1fa57), (0x1fa60, 0x1fa6d),
    (0x1fa70, 0x1fa7c), (0x1fa80, 0x1fa8a), (0x1fa8e, 0x1fac6), (0x1fac8, 0x1fac8), (0x1facd, 0x1fadc),
    (0x1fadf, 0x1faea), (0x1faef, 0x1faf8), (0x1fb00, 0x1fb92), (0x1fb94, 0x1fbfa), (0xe0001, 0xe0001),
    (0xe0020, 0xe007f)]

/-- parser/tokeniser/scripts.hpp:193-196. -/
def pIsCoptic : PropText :=
  .ranges false [(0x3e2, 0x3ef), (0x2c80, 0x2cf3), (0x2cf9, 0x2cff)]

/-- parser/tokeniser/scripts.hpp:198-202. -/
def pIsCuneiform : PropText :=
  .ranges false [(0x12000, 0x12399), (0x12400, 0x1246e), (0x12470, 0x12474), (0x12480, 0x12543)]

/-- parser/tokeniser/scripts.hpp:204-208. -/
def pIsCypriot : PropText :=
  .ranges false [(0x10800, 0x10805), (0x10808, 0x10808), (0x1080a, 0x10835), (0x10837, 0x10837), (0x10838, 0x10838),
    (0x1083c, 0x1083c), (0x1083f, 0x1083f)]

/-- parser/tokeniser/scripts.hpp:210-213. -/
def pIsCypro_Minoan : PropText :=
  .ranges false [(0x12f90, 0x12ff2)]

/-- parser/tokeniser/scripts.hpp:215-220. -/
def pIsCyrillic : PropText :=
  .ranges false [(0x400, 0x484), (0x487, 0x52f), (0x1c80, 0x1c8a), (0x1d2b, 0x1d2b), (0x1d78, 0x1d78),
    (0x2de0, 0x2dff), (0xa640, 0xa69f), (0xfe2e, 0xfe2e), (0xfe2f, 0xfe2f), (0x1e030, 0x1e06d), (0x1e08f, 0x1e08f)]

/-- parser/tokeniser/scripts.hpp:222-225. -/
def pIsDeseret : PropText :=
  .ranges false [(0x10400, 0x1044f)]

/-- parser/tokeniser/scripts.hpp:227-231. -/
def pIsDevanagari : PropText :=
  .ranges false [(0x900, 0x950), (0x955, 0x963), (0x966, 0x97f), (0xa8e0, 0xa8ff), (0x11b00, 0x11b09)]

/-- parser/tokeniser/scripts.hpp:233-238. -/
def pIsDives_Akuru : PropText :=
  .ranges false [(0x11900, 0x11906), (0x11909, 0x11909), (0x1190c, 0x11913), (0x11915, 0x11915), (0x11916, 0x11916),
    (0x11918, 0x11935), (0x11937, 0x11937), (0x11938, 0x11938), (0x1193b, 0x11946), (0x11950, 0x11959)]

/-- parser/tokeniser/scripts.hpp:240-243. -/
def pIsDogra : PropText :=
  .ranges false [(0x11800, 0x1183b)]

/-- parser/tokeniser/scripts.hpp:245-249. -/
def pIsDuployan : PropText :=
  .ranges false [(0x1bc00, 0x1bc6a), (0x1bc70, 0x1bc7c), (0x1bc80, 0x1bc88), (0x1bc90, 0x1bc99), (0x1bc9c, 0x1bc9f)]

/-- parser/tokeniser/scripts.hpp:251-254. -/
def pIsEgyptian_Hieroglyphs : PropText :=
  .ranges false [(0x13000, 0x13455), (0x13460, 0x143fa)]

/-- parser/tokeniser/scripts.hpp:256-259. -/
def pIsElbasan : PropText :=
  .ranges false [(0x10500, 0x10527)]

/-- parser/tokeniser/scripts.hpp:261-264. -/
def pIsElymaic : PropText :=
  .ranges false [(0x10fe0, 0x10ff6)]

/-- parser/tokeniser/scripts.hpp:266-278. -/
def pIsEthiopic : PropText :=
  .ranges false [(0x1200, 0x1248), (0x124a, 0x124d), (0x1250, 0x1256), (0x1258, 0x1258), (0x125a, 0x125d),
    (0x1260, 0x1288), (0x128a, 0x128d), (0x1290, 0x12b0), (0x12b2, 0x12b5), (0x12b8, 0x12be), (0x12c0, 0x12c0),
    (0x12c2, 0x12c5), (0x12c8, 0x12d6), (0x12d8, 0x1310), (0x1312, 0x1315), (0x1318, 0x135a), (0x135d, 0x137c),
    (0x1380, 0x1399), (0x2d80, 0x2d96), (0x2da0, 0x2da6), (0x2da8, 0x2dae), (0x2db0, 0x2db6), (0x2db8, 0x2dbe),
    (0x2dc0, 0x2dc6), (0x2dc8, 0x2dce), (0x2dd0, 0x2dd6), (0x2dd8, 0x2dde), (0xab01, 0xab06), (0xab09, 0xab0e),
    (0xab11, 0xab16), (0xab20, 0xab26), (0xab28, 0xab2e), (0x1e7e0, 0x1e7e6), (0x1e7e8, 0x1e7eb), (0x1e7ed, 0x1e7ed),
    (0x1e7ee, 0x1e7ee), (0x1e7f0, 0x1e7fe)]

/-- parser/tokeniser/scripts.hpp:280-283. -/
def pIsGaray : PropText :=
  .ranges false [(0x10d40, 0x10d65), (0x10d69, 0x10d85), (0x10d8e, 0x10d8e), (0x10d8f, 0x10d8f)]

/-- parser/tokeniser/scripts.hpp:285-289. -/
def pIsGeorgian : PropText :=
  .ranges false [(0x10a0, 0x10c5), (0x10c7, 0x10c7), (0x10cd, 0x10cd), (0x10d0, 0x10fa), (0x10fc, 0x10ff),
    (0x1c90, 0x1cba), (0x1cbd, 0x1cbf), (0x2d00, 0x2d25), (0x2d27, 0x2d27), (0x2d2d, 0x2d2d)]

/-- parser/tokeniser/scripts.hpp:291-295. -/
def pIsGlagolitic : PropText :=
  .ranges false [(0x2c00, 0x2c5f), (0x1e000, 0x1e006), (0x1e008, 0x1e018), (0x1e01b, 0x1e021), (0x1e023, 0x1e023),
    (0x1e024, 0x1e024), (0x1e026, 0x1e02a)]

/-- parser/tokeniser/scripts.hpp:297-300. -/
def pIsGothic : PropText :=
  .ranges false [(0x10330, 0x1034a)]

/-- parser/tokeniser/scripts.hpp:302-309. -/
def pIsGrantha : PropText :=
  .ranges false [(0x11300, 0x11303), (0x11305, 0x1130c), (0x1130f, 0x1130f), (0x11310, 0x11310), (0x11313, 0x11328),
    (0x1132a, 0x11330), (0x11332, 0x11332), (0x11333, 0x11333), (0x11335, 0x11339), (0x1133c, 0x11344),
    (0x11347, 0x11347), (0x11348, 0x11348), (0x1134b, 0x1134d), (0x11350, 0x11350), (0x11357, 0x11357),
    (0x1135d, 0x11363), (0x11366, 0x1136c), (0x11370, 0x11374)]

/-- parser/tokeniser/scripts.hpp:311-321. -/
def pIsGreek : PropText :=
  .ranges false [(0x370, 0x373), (0x375, 0x377), (0x37a, 0x37d), (0x37f, 0x37f), (0x384, 0x384), (0x386, 0x386),
    (0x388, 0x38a), (0x38c, 0x38c), (0x38e, 0x3a1), (0x3a3, 0x3e1), (0x3f0, 0x3ff), (0x1d26, 0x1d2a),
    (0x1d5d, 0x1d61), (0x1d66, 0x1d6a), (0x1dbf, 0x1dbf), (0x1f00, 0x1f15), (0x1f18, 0x1f1d), (0x1f20, 0x1f45),
    (0x1f48, 0x1f4d), (0x1f50, 0x1f57), (0x1f59, 0x1f59), (0x1f5b, 0x1f5b), (0x1f5d, 0x1f5d), (0x1f5f, 0x1f7d),
    (0x1f80, 0x1fb4), (0x1fb6, 0x1fc4), (0x1fc6, 0x1fd3), (0x1fd6, 0x1fdb), (0x1fdd, 0x1fef), (0x1ff2, 0x1ff4),
    (0x1ff6, 0x1ffe), (0x2126, 0x2126), (0xab65, 0xab65), (0x10140, 0x1018e), (0x101a0, 0x101a0), (0x1d200, 0x1d245)]

/-- parser/tokeniser/scripts.hpp:323-328. -/
def pIsGujarati : PropText :=
  .ranges false [(0xa81, 0xa83), (0xa85, 0xa8d), (0xa8f, 0xa91), (0xa93, 0xaa8), (0xaaa, 0xab0), (0xab2, 0xab2),
    (0xab3, 0xab3), (0xab5, 0xab9), (0xabc, 0xac5), (0xac7, 0xac9), (0xacb, 0xacd), (0xad0, 0xad0), (0xae0, 0xae3),
    (0xae6, 0xaf1), (0xaf9, 0xaff)]

/-- parser/tokeniser/scripts.hpp:330-334. -/
def pIsGunjala_Gondi : PropText :=
  .ranges false [(0x11d60, 0x11d65), (0x11d67, 0x11d67), (0x11d68, 0x11d68), (0x11d6a, 0x11d8e), (0x11d90, 0x11d90),
    (0x11d91, 0x11d91), (0x11d93, 0x11d98), (0x11da0, 0x11da9)]

/-- parser/tokeniser/scripts.hpp:336-342. -/
def pIsGurmukhi : PropText :=
  .ranges false [(0xa01, 0xa03), (0xa05, 0xa0a), (0xa0f, 0xa0f), (0xa10, 0xa10), (0xa13, 0xa28), (0xa2a, 0xa30),
    (0xa32, 0xa32), (0xa33, 0xa33), (0xa35, 0xa35), (0xa36, 0xa36), (0xa38, 0xa38), (0xa39, 0xa39), (0xa3c, 0xa3c),
    (0xa3e, 0xa42), (0xa47, 0xa47), (0xa48, 0xa48), (0xa4b, 0xa4d), (0xa51, 0xa51), (0xa59, 0xa5c), (0xa5e, 0xa5e),
    (0xa66, 0xa76)]

/-- parser/tokeniser/scripts.hpp:344-347. -/
def pIsGurung_Khema : PropText :=
  .ranges false [(0x16100, 0x16139)]

/-- parser/tokeniser/scripts.hpp:349-357. -/
def pIsHan : PropText :=
  .ranges false [(0x2e80, 0x2e99), (0x2e9b, 0x2ef3), (0x2f00, 0x2fd5), (0x3005, 0x3005), (0x3007, 0x3007),
    (0x3021, 0x3029), (0x3038, 0x303b), (0x3400, 0x4dbf), (0x4e00, 0x9fff), (0xf900, 0xfa6d), (0xfa70, 0xfad9),
    (0x16fe2, 0x16fe2), (0x16fe3, 0x16fe3), (0x16ff0, 0x16ff6), (0x20000, 0x2a6df), (0x2a700, 0x2b81d),
    (0x2b820, 0x2cead), (0x2ceb0, 0x2ebe0), (0x2ebf0, 0x2ee5d), (0x2f800, 0x2fa1d), (0x30000, 0x3134a),
    (0x31350, 0x33479)]

/-- parser/tokeniser/scripts.hpp:359-365. -/
def pIsHangul : PropText :=
  .ranges false [(0x1100, 0x11ff), (0x302e, 0x302e), (0x302f, 0x302f), (0x3131, 0x318e), (0x3200, 0x321e),
    (0x3260, 0x327e), (0xa960, 0xa97c), (0xac00, 0xd7a3), (0xd7b0, 0xd7c6), (0xd7cb, 0xd7fb), (0xffa0, 0xffbe),
    (0xffc2, 0xffc7), (0xffca, 0xffcf), (0xffd2, 0xffd7), (0xffda, 0xffdc)]

/-- parser/tokeniser/scripts.hpp:367-370. -/
def pIsHanifi_Rohingya : PropText :=
  .ranges false [(0x10d00, 0x10d27), (0x10d30, 0x10d39)]

/-- parser/tokeniser/scripts.hpp:372-375. -/
def pIsHanunoo : PropText :=
  .ranges false [(0x1720, 0x1734)]

/-- parser/tokeniser/scripts.hpp:377-380. -/
def pIsHatran : PropText :=
  .ranges false [(0x108e0, 0x108f2), (0x108f4, 0x108f4), (0x108f5, 0x108f5), (0x108fb, 0x108ff)]

/-- parser/tokeniser/scripts.hpp:382-387. -/
def pIsHebrew : PropText :=
  .ranges false [(0x591, 0x5c7), (0x5d0, 0x5ea), (0x5ef, 0x5f4), (0xfb1d, 0xfb36), (0xfb38, 0xfb3c),
    (0xfb3e, 0xfb3e), (0xfb40, 0xfb40), (0xfb41, 0xfb41), (0xfb43, 0xfb43), (0xfb44, 0xfb44), (0xfb46, 0xfb4f)]

/-- parser/tokeniser/scripts.hpp:389-393. -/
def pIsHiragana : PropText :=
  .ranges false [(0x3041, 0x3096), (0x309d, 0x309f), (0x1b001, 0x1b11f), (0x1b132, 0x1b132), (0x1b150, 0x1b152),
    (0x1f200, 0x1f200)]

/-- parser/tokeniser/scripts.hpp:395-398. -/
def pIsImperial_Aramaic : PropText :=
  .ranges false [(0x10840, 0x10855), (0x10857, 0x1085f)]

/-- parser/tokeniser/scripts.hpp:400-410. -/
def pIsInherited : PropText :=
  .ranges false [(0x300, 0x36f), (0x485, 0x485), (0x486, 0x486), (0x64b, 0x655), (0x670, 0x670), (0x951, 0x954),
    (0x1ab0, 0x1add), (0x1ae0, 0x1aeb), (0x1cd0, 0x1cd2), (0x1cd4, 0x1ce0), (0x1ce2, 0x1ce8), (0x1ced, 0x1ced),
    (0x1cf4, 0x1cf4), (0x1cf8, 0x1cf8), (0x1cf9, 0x1cf9), (0x1dc0, 0x1dff), (0x200c, 0x200c), (0x200d, 0x200d),
    (0x20d0, 0x20f0), (0x302a, 0x302d), (0x3099, 0x3099), (0x309a, 0x309a), (0xfe00, 0xfe0f), (0xfe20, 0xfe2d),
    (0x101fd, 0x101fd), (0x102e0, 0x102e0), (0x1133b, 0x1133b), (0x1cf00, 0x1cf2d), (0x1cf30, 0x1cf46),
    (0x1d167, 0x1d169), (0x1d17b, 0x1d182), (0x1d185, 0x1d18b), (0x1d1aa, 0x1d1ad), (0xe0100, 0xe01ef)]

/-- parser/tokeniser/scripts.hpp:412-415. -/
def pIsInscriptional_Pahlavi : PropText :=
  .ranges false [(0x10b60, 0x10b72), (0x10b78, 0x10b7f)]

/-- parser/tokeniser/scripts.hpp:417-420. -/
def pIsInscriptional_Parthian : PropText :=
  .ranges false [(0x10b40, 0x10b55), (0x10b58, 0x10b5f)]

/-- parser/tokeniser/scripts.hpp:422-425. -/
def pIsJavanese : PropText :=
  .ranges false [(0xa980, 0xa9cd), (0xa9d0, 0xa9d9), (0xa9de, 0xa9de), (0xa9df, 0xa9df)]

/-- parser/tokeniser/scripts.hpp:427-430. -/
def pIsKaithi : PropText :=
  .ranges false [(0x11080, 0x110c2), (0x110cd, 0x110cd)]

/-- parser/tokeniser/scripts.hpp:432-437. -/
def pIsKannada : PropText :=
  .ranges false [(0xc80, 0xc8c), (0xc8e, 0xc90), (0xc92, 0xca8), (0xcaa, 0xcb3), (0xcb5, 0xcb9), (0xcbc, 0xcc4),
    (0xcc6, 0xcc8), (0xcca, 0xccd), (0xcd5, 0xcd5), (0xcd6, 0xcd6), (0xcdc, 0xcde), (0xce0, 0xce3), (0xce6, 0xcef),
    (0xcf1, 0xcf3)]

/-- parser/tokeniser/scripts.hpp:439-445. -/
def pIsKatakana : PropText :=
  .ranges false [(0x30a1, 0x30fa), (0x30fd, 0x30ff), (0x31f0, 0x31ff), (0x32d0, 0x32fe), (0x3300, 0x3357),
    (0xff66, 0xff6f), (0xff71, 0xff9d), (0x1aff0, 0x1aff3), (0x1aff5, 0x1affb), (0x1affd, 0x1affd),
    (0x1affe, 0x1affe), (0x1b000, 0x1b000), (0x1b120, 0x1b122), (0x1b155, 0x1b155), (0x1b164, 0x1b167)]

/-- parser/tokeniser/scripts.hpp:447-450. -/
def pIsKawi : PropText :=
  .ranges false [(0x11f00, 0x11f10), (0x11f12, 0x11f3a), (0x11f3e, 0x11f5a)]

/-- parser/tokeniser/scripts.hpp:452-455. -/
def pIsKayah_Li : PropText :=
  .ranges false [(0xa900, 0xa92d), (0xa92f, 0xa92f)]

/-- parser/tokeniser/scripts.hpp:457-462. -/
def pIsKharoshthi : PropText :=
  .ranges false [(0x10a00, 0x10a03), (0x10a05, 0x10a05), (0x10a06, 0x10a06), (0x10a0c, 0x10a13), (0x10a15, 0x10a17),
    (0x10a19, 0x10a35), (0x10a38, 0x10a3a), (0x10a3f, 0x10a48), (0x10a50, 0x10a58)]

/-- parser/tokeniser/scripts.hpp:464-467. -/
def pIsKhitan_Small_Script : PropText :=
  .ranges false [(0x16fe4, 0x16fe4), (0x18b00, 0x18cd5), (0x18cff, 0x18cff)]

/-- parser/tokeniser/scripts.hpp:469-473. -/
def pIsKhmer : PropText :=
  .ranges false [(0x1780, 0x17dd), (0x17e0, 0x17e9), (0x17f0, 0x17f9), (0x19e0, 0x19ff)]

/-- parser/tokeniser/scripts.hpp:475-478. -/
def pIsKhojki : PropText :=
  .ranges false [(0x11200, 0x11211), (0x11213, 0x11241)]

/-- parser/tokeniser/scripts.hpp:480-483. -/
def pIsKhudawadi : PropText :=
  .ranges false [(0x112b0, 0x112ea), (0x112f0, 0x112f9)]

/-- parser/tokeniser/scripts.hpp:485-488. -/
def pIsKirat_Rai : PropText :=
  .ranges false [(0x16d40, 0x16d79)]

/-- parser/tokeniser/scripts.hpp:490-495. -/
def pIsLao : PropText :=
  .ranges false [(0xe81, 0xe81), (0xe82, 0xe82), (0xe84, 0xe84), (0xe86, 0xe8a), (0xe8c, 0xea3), (0xea5, 0xea5),
    (0xea7, 0xebd), (0xec0, 0xec4), (0xec6, 0xec6), (0xec8, 0xece), (0xed0, 0xed9), (0xedc, 0xedf)]

/-- parser/tokeniser/scripts.hpp:497-508. -/
def pIsLatin : PropText :=
  .ranges false [(0x41, 0x5a), (0x61, 0x7a), (0xaa, 0xaa), (0xba, 0xba), (0xc0, 0xd6), (0xd8, 0xf6), (0xf8, 0x2b8),
    (0x2e0, 0x2e4), (0x1d00, 0x1d25), (0x1d2c, 0x1d5c), (0x1d62, 0x1d65), (0x1d6b, 0x1d77), (0x1d79, 0x1dbe),
    (0x1e00, 0x1eff), (0x2071, 0x2071), (0x207f, 0x207f), (0x2090, 0x209c), (0x212a, 0x212a), (0x212b, 0x212b),
    (0x2132, 0x2132), (0x214e, 0x214e), (0x2160, 0x2188), (0x2c60, 0x2c7f), (0xa722, 0xa787), (0xa78b, 0xa7dc),
    (0xa7f1, 0xa7ff), (0xab30, 0xab5a), (0xab5c, 0xab64), (0xab66, 0xab69), (0xfb00, 0xfb06), (0xff21, 0xff3a),
    (0xff41, 0xff5a), (0x10780, 0x10785), (0x10787, 0x107b0), (0x107b2, 0x107ba), (0x1df00, 0x1df1e),
    (0x1df25, 0x1df2a)]

/-- parser/tokeniser/scripts.hpp:510-513. -/
def pIsLepcha : PropText :=
  .ranges false [(0x1c00, 0x1c37), (0x1c3b, 0x1c49), (0x1c4d, 0x1c4f)]

/-- parser/tokeniser/scripts.hpp:515-519. -/
def pIsLimbu : PropText :=
  .ranges false [(0x1900, 0x191e), (0x1920, 0x192b), (0x1930, 0x193b), (0x1940, 0x1940), (0x1944, 0x194f)]

/-- parser/tokeniser/scripts.hpp:521-524. -/
def pIsLinear_A : PropText :=
  .ranges false [(0x10600, 0x10736), (0x10740, 0x10755), (0x10760, 0x10767)]

/-- parser/tokeniser/scripts.hpp:526-531. -/
def pIsLinear_B : PropText :=
  .ranges false [(0x10000, 0x1000b), (0x1000d, 0x10026), (0x10028, 0x1003a), (0x1003c, 0x1003c), (0x1003d, 0x1003d),
    (0x1003f, 0x1004d), (0x10050, 0x1005d), (0x10080, 0x100fa)]

/-- parser/tokeniser/scripts.hpp:533-536. -/
def pIsLisu : PropText :=
  .ranges false [(0xa4d0, 0xa4ff), (0x11fb0, 0x11fb0)]

/-- parser/tokeniser/scripts.hpp:538-541. -/
def pIsLycian : PropText :=
  .ranges false [(0x10280, 0x1029c)]

/-- parser/tokeniser/scripts.hpp:543-546. -/
def pIsLydian : PropText :=
  .ranges false [(0x10920, 0x10939), (0x1093f, 0x1093f)]

/-- parser/tokeniser/scripts.hpp:548-551. -/
def pIsMahajani : PropText :=
  .ranges false [(0x11150, 0x11176)]

/-- parser/tokeniser/scripts.hpp:553-556. -/
def pIsMakasar : PropText :=
  .ranges false [(0x11ee0, 0x11ef8)]

/-- parser/tokeniser/scripts.hpp:558-562. -/
def pIsMalayalam : PropText :=
  .ranges false [(0xd00, 0xd0c), (0xd0e, 0xd10), (0xd12, 0xd44), (0xd46, 0xd48), (0xd4a, 0xd4f), (0xd54, 0xd63),
    (0xd66, 0xd7f)]

/-- parser/tokeniser/scripts.hpp:564-567. -/
def pIsMandaic : PropText :=
  .ranges false [(0x840, 0x85b), (0x85e, 0x85e)]

/-- parser/tokeniser/scripts.hpp:569-572. -/
def pIsManichaean : PropText :=
  .ranges false [(0x10ac0, 0x10ae6), (0x10aeb, 0x10af6)]

/-- parser/tokeniser/scripts.hpp:574-577. -/
def pIsMarchen : PropText :=
  .ranges false [(0x11c70, 0x11c8f), (0x11c92, 0x11ca7), (0x11ca9, 0x11cb6)]

/-- parser/tokeniser/scripts.hpp:579-583. -/
def pIsMasaram_Gondi : PropText :=
  .ranges false [(0x11d00, 0x11d06), (0x11d08, 0x11d08), (0x11d09, 0x11d09), (0x11d0b, 0x11d36), (0x11d3a, 0x11d3a),
    (0x11d3c, 0x11d3c), (0x11d3d, 0x11d3d), (0x11d3f, 0x11d47), (0x11d50, 0x11d59)]

/-- parser/tokeniser/scripts.hpp:585-588. -/
def pIsMedefaidrin : PropText :=
  .ranges false [(0x16e40, 0x16e9a)]

/-- parser/tokeniser/scripts.hpp:590-593. -/
def pIsMeetei_Mayek : PropText :=
  .ranges false [(0xaae0, 0xaaf6), (0xabc0, 0xabed), (0xabf0, 0xabf9)]

/-- parser/tokeniser/scripts.hpp:595-598. -/
def pIsMende_Kikakui : PropText :=
  .ranges false [(0x1e800, 0x1e8c4), (0x1e8c7, 0x1e8d6)]

/-- parser/tokeniser/scripts.hpp:600-603. -/
def pIsMeroitic_Cursive : PropText :=
  .ranges false [(0x109a0, 0x109b7), (0x109bc, 0x109cf), (0x109d2, 0x109ff)]

/-- parser/tokeniser/scripts.hpp:605-608. -/
def pIsMeroitic_Hieroglyphs : PropText :=
  .ranges false [(0x10980, 0x1099f)]

/-- parser/tokeniser/scripts.hpp:610-613. -/
def pIsMiao : PropText :=
  .ranges false [(0x16f00, 0x16f4a), (0x16f4f, 0x16f87), (0x16f8f, 0x16f9f)]

/-- parser/tokeniser/scripts.hpp:615-618. -/
def pIsModi : PropText :=
  .ranges false [(0x11600, 0x11644), (0x11650, 0x11659)]

/-- parser/tokeniser/scripts.hpp:620-624. -/
def pIsMongolian : PropText :=
  .ranges false [(0x1800, 0x1800), (0x1801, 0x1801), (0x1804, 0x1804), (0x1806, 0x1819), (0x1820, 0x1878),
    (0x1880, 0x18aa), (0x11660, 0x1166c)]

/-- parser/tokeniser/scripts.hpp:626-629. -/
def pIsMro : PropText :=
  .ranges false [(0x16a40, 0x16a5e), (0x16a60, 0x16a69), (0x16a6e, 0x16a6e), (0x16a6f, 0x16a6f)]

/-- parser/tokeniser/scripts.hpp:631-635. -/
def pIsMultani : PropText :=
  .ranges false [(0x11280, 0x11286), (0x11288, 0x11288), (0x1128a, 0x1128d), (0x1128f, 0x1129d), (0x1129f, 0x112a9)]

/-- parser/tokeniser/scripts.hpp:637-641. -/
def pIsMyanmar : PropText :=
  .ranges false [(0x1000, 0x109f), (0xa9e0, 0xa9fe), (0xaa60, 0xaa7f), (0x116d0, 0x116e3)]

/-- parser/tokeniser/scripts.hpp:643-646. -/
def pIsNabataean : PropText :=
  .ranges false [(0x10880, 0x1089e), (0x108a7, 0x108af)]

/-- parser/tokeniser/scripts.hpp:648-651. -/
def pIsNag_Mundari : PropText :=
  .ranges false [(0x1e4d0, 0x1e4f9)]

/-- parser/tokeniser/scripts.hpp:653-656. -/
def pIsNandinagari : PropText :=
  .ranges false [(0x119a0, 0x119a7), (0x119aa, 0x119d7), (0x119da, 0x119e4)]

/-- parser/tokeniser/scripts.hpp:658-661. -/
def pIsNew_Tai_Lue : PropText :=
  .ranges false [(0x1980, 0x19ab), (0x19b0, 0x19c9), (0x19d0, 0x19da), (0x19de, 0x19de), (0x19df, 0x19df)]

/-- parser/tokeniser/scripts.hpp:663-666. -/
def pIsNewa : PropText :=
  .ranges false [(0x11400, 0x1145b), (0x1145d, 0x11461)]

/-- parser/tokeniser/scripts.hpp:668-671. -/
def pIsNko : PropText :=
  .ranges false [(0x7c0, 0x7fa), (0x7fd, 0x7ff)]

/-- parser/tokeniser/scripts.hpp:673-676. -/
def pIsNushu : PropText :=
  .ranges false [(0x16fe1, 0x16fe1), (0x1b170, 0x1b2fb)]

/-- parser/tokeniser/scripts.hpp:678-682. -/
def pIsNyiakeng_Puachue_Hmong : PropText :=
  .ranges false [(0x1e100, 0x1e12c), (0x1e130, 0x1e13d), (0x1e140, 0x1e149), (0x1e14e, 0x1e14e), (0x1e14f, 0x1e14f)]

/-- parser/tokeniser/scripts.hpp:684-687. -/
def pIsOgham : PropText :=
  .ranges false [(0x1680, 0x169c)]

/-- parser/tokeniser/scripts.hpp:689-692. -/
def pIsOl_Chiki : PropText :=
  .ranges false [(0x1c50, 0x1c7f)]

/-- parser/tokeniser/scripts.hpp:694-697. -/
def pIsOl_Onal : PropText :=
  .ranges false [(0x1e5d0, 0x1e5fa), (0x1e5ff, 0x1e5ff)]

/-- parser/tokeniser/scripts.hpp:699-702. -/
def pIsOld_Hungarian : PropText :=
  .ranges false [(0x10c80, 0x10cb2), (0x10cc0, 0x10cf2), (0x10cfa, 0x10cff)]

/-- parser/tokeniser/scripts.hpp:704-707. -/
def pIsOld_Italic : PropText :=
  .ranges false [(0x10300, 0x10323), (0x1032d, 0x1032f)]

/-- parser/tokeniser/scripts.hpp:709-712. -/
def pIsOld_North_Arabian : PropText :=
  .ranges false [(0x10a80, 0x10a9f)]

/-- parser/tokeniser/scripts.hpp:714-717. -/
def pIsOld_Permic : PropText :=
  .ranges false [(0x10350, 0x1037a)]

/-- parser/tokeniser/scripts.hpp:719-722. -/
def pIsOld_Persian : PropText :=
  .ranges false [(0x103a0, 0x103c3), (0x103c8, 0x103d5)]

/-- parser/tokeniser/scripts.hpp:724-727. -/
def pIsOld_Sogdian : PropText :=
  .ranges false [(0x10f00, 0x10f27)]

/-- parser/tokeniser/scripts.hpp:729-732. -/
def pIsOld_South_Arabian : PropText :=
  .ranges false [(0x10a60, 0x10a7f)]

/-- parser/tokeniser/scripts.hpp:734-737. -/
def pIsOld_Turkic : PropText :=
  .ranges false [(0x10c00, 0x10c48)]

/-- parser/tokeniser/scripts.hpp:739-742. -/
def pIsOld_Uyghur : PropText :=
  .ranges false [(0x10f70, 0x10f89)]

/-- parser/tokeniser/scripts.hpp:744-750. -/
def pIsOriya : PropText :=
  .ranges false [(0xb01, 0xb03), (0xb05, 0xb0c), (0xb0f, 0xb0f), (0xb10, 0xb10), (0xb13, 0xb28), (0xb2a, 0xb30),
    (0xb32, 0xb32), (0xb33, 0xb33), (0xb35, 0xb39), (0xb3c, 0xb44), (0xb47, 0xb47), (0xb48, 0xb48), (0xb4b, 0xb4d),
    (0xb55, 0xb57), (0xb5c, 0xb5c), (0xb5d, 0xb5d), (0xb5f, 0xb63), (0xb66, 0xb77)]

/-- parser/tokeniser/scripts.hpp:752-755. -/
def pIsOsage : PropText :=
  .ranges false [(0x104b0, 0x104d3), (0x104d8, 0x104fb)]

/-- parser/tokeniser/scripts.hpp:757-760. -/
def pIsOsmanya : PropText :=
  .ranges false [(0x10480, 0x1049d), (0x104a0, 0x104a9)]

/-- parser/tokeniser/scripts.hpp:762-766. -/
def pIsPahawh_Hmong : PropText :=
  .ranges false [(0x16b00, 0x16b45), (0x16b50, 0x16b59), (0x16b5b, 0x16b61), (0x16b63, 0x16b77), (0x16b7d, 0x16b8f)]

/-- parser/tokeniser/scripts.hpp:768-771. -/
def pIsPalmyrene : PropText :=
  .ranges false [(0x10860, 0x1087f)]

/-- parser/tokeniser/scripts.hpp:773-776. -/
def pIsPau_Cin_Hau : PropText :=
  .ranges false [(0x11ac0, 0x11af8)]

/-- parser/tokeniser/scripts.hpp:778-781. -/
def pIsPhags_Pa : PropText :=
  .ranges false [(0xa840, 0xa877)]

/-- parser/tokeniser/scripts.hpp:783-786. -/
def pIsPhoenician : PropText :=
  .ranges false [(0x10900, 0x1091b), (0x1091f, 0x1091f)]

/-- parser/tokeniser/scripts.hpp:788-791. -/
def pIsPsalter_Pahlavi : PropText :=
  .ranges false [(0x10b80, 0x10b91), (0x10b99, 0x10b9c), (0x10ba9, 0x10baf)]

/-- parser/tokeniser/scripts.hpp:793-796. -/
def pIsRejang : PropText :=
  .ranges false [(0xa930, 0xa953), (0xa95f, 0xa95f)]

/-- parser/tokeniser/scripts.hpp:798-801. -/
def pIsRunic : PropText :=
  .ranges false [(0x16a0, 0x16ea), (0x16ee, 0x16f8)]

/-- parser/tokeniser/scripts.hpp:803-806. -/
def pIsSamaritan : PropText :=
  .ranges false [(0x800, 0x82d), (0x830, 0x83e)]

/-- parser/tokeniser/scripts.hpp:808-811. -/
def pIsSaurashtra : PropText :=
  .ranges false [(0xa880, 0xa8c5), (0xa8ce, 0xa8d9)]

/-- parser/tokeniser/scripts.hpp:813-816. -/
def pIsSharada : PropText :=
  .ranges false [(0x11180, 0x111df), (0x11b60, 0x11b67)]

/-- parser/tokeniser/scripts.hpp:818-821. -/
def pIsShavian : PropText :=
  .ranges false [(0x10450, 0x1047f)]

/-- parser/tokeniser/scripts.hpp:823-826. -/
def pIsSiddham : PropText :=
  .ranges false [(0x11580, 0x115b5), (0x115b8, 0x115dd)]

/-- parser/tokeniser/scripts.hpp:828-831. -/
def pIsSidetic : PropText :=
  .ranges false [(0x10940, 0x10959)]

/-- parser/tokeniser/scripts.hpp:833-836. -/
def pIsSignWriting : PropText :=
  .ranges false [(0x1d800, 0x1da8b), (0x1da9b, 0x1da9f), (0x1daa1, 0x1daaf)]

/-- parser/tokeniser/scripts.hpp:838-843. -/
def pIsSinhala : PropText :=
  .ranges false [(0xd81, 0xd83), (0xd85, 0xd96), (0xd9a, 0xdb1), (0xdb3, 0xdbb), (0xdbd, 0xdbd), (0xdc0, 0xdc6),
    (0xdca, 0xdca), (0xdcf, 0xdd4), (0xdd6, 0xdd6), (0xdd8, 0xddf), (0xde6, 0xdef), (0xdf2, 0xdf4),
    (0x111e1, 0x111f4)]

/-- parser/tokeniser/scripts.hpp:845-848. -/
def pIsSogdian : PropText :=
  .ranges false [(0x10f30, 0x10f59)]

/-- parser/tokeniser/scripts.hpp:850-853. -/
def pIsSora_Sompeng : PropText :=
  .ranges false [(0x110d0, 0x110e8), (0x110f0, 0x110f9)]

/-- parser/tokeniser/scripts.hpp:855-858. -/
def pIsSoyombo : PropText :=
  .ranges false [(0x11a50, 0x11aa2)]

/-- parser/tokeniser/scripts.hpp:860-863. -/
def pIsSundanese : PropText :=
  .ranges false [(0x1b80, 0x1bbf), (0x1cc0, 0x1cc7)]

/-- parser/tokeniser/scripts.hpp:865-868. -/
def pIsSunuwar : PropText :=
  .ranges false [(0x11bc0, 0x11be1), (0x11bf0, 0x11bf9)]

/-- parser/tokeniser/scripts.hpp:870-873. -/
def pIsSyloti_Nagri : PropText :=
  .ranges false [(0xa800, 0xa82c)]

/-- parser/tokeniser/scripts.hpp:875-878. -/
def pIsSyriac : PropText :=
  .ranges false [(0x700, 0x70d), (0x70f, 0x74a), (0x74d, 0x74f), (0x860, 0x86a)]

/-- parser/tokeniser/scripts.hpp:880-883. -/
def pIsTagalog : PropText :=
  .ranges false [(0x1700, 0x1715), (0x171f, 0x171f)]

/-- parser/tokeniser/scripts.hpp:885-888. -/
def pIsTagbanwa : PropText :=
  .ranges false [(0x1760, 0x176c), (0x176e, 0x1770), (0x1772, 0x1772), (0x1773, 0x1773)]

/-- parser/tokeniser/scripts.hpp:890-893. -/
def pIsTai_Le : PropText :=
  .ranges false [(0x1950, 0x196d), (0x1970, 0x1974)]

/-- parser/tokeniser/scripts.hpp:895-899. -/
def pIsTai_Tham : PropText :=
  .ranges false [(0x1a20, 0x1a5e), (0x1a60, 0x1a7c), (0x1a7f, 0x1a89), (0x1a90, 0x1a99), (0x1aa0, 0x1aad)]

/-- parser/tokeniser/scripts.hpp:901-904. -/
def pIsTai_Viet : PropText :=
  .ranges false [(0xaa80, 0xaac2), (0xaadb, 0xaadf)]

/-- parser/tokeniser/scripts.hpp:906-909. -/
def pIsTai_Yo : PropText :=
  .ranges false [(0x1e6c0, 0x1e6de), (0x1e6e0, 0x1e6f5), (0x1e6fe, 0x1e6fe), (0x1e6ff, 0x1e6ff)]

/-- parser/tokeniser/scripts.hpp:911-914. -/
def pIsTakri : PropText :=
  .ranges false [(0x11680, 0x116b9), (0x116c0, 0x116c9)]

/-- parser/tokeniser/scripts.hpp:916-922. -/
def pIsTamil : PropText :=
  .ranges false [(0xb82, 0xb82), (0xb83, 0xb83), (0xb85, 0xb8a), (0xb8e, 0xb90), (0xb92, 0xb95), (0xb99, 0xb99),
    (0xb9a, 0xb9a), (0xb9c, 0xb9c), (0xb9e, 0xb9e), (0xb9f, 0xb9f), (0xba3, 0xba3), (0xba4, 0xba4), (0xba8, 0xbaa),
    (0xbae, 0xbb9), (0xbbe, 0xbc2), (0xbc6, 0xbc8), (0xbca, 0xbcd), (0xbd0, 0xbd0), (0xbd7, 0xbd7), (0xbe6, 0xbfa),
    (0x11fc0, 0x11ff1), (0x11fff, 0x11fff)]

/-- parser/tokeniser/scripts.hpp:924-927. -/
def pIsTangsa : PropText :=
  .ranges false [(0x16a70, 0x16abe), (0x16ac0, 0x16ac9)]

/-- parser/tokeniser/scripts.hpp:929-933. -/
def pIsTangut : PropText :=
  .ranges false [(0x16fe0, 0x16fe0), (0x17000, 0x18aff), (0x18d00, 0x18d1e), (0x18d80, 0x18df2)]

/-- parser/tokeniser/scripts.hpp:935-940. -/
def pIsTelugu : PropText :=
  .ranges false [(0xc00, 0xc0c), (0xc0e, 0xc10), (0xc12, 0xc28), (0xc2a, 0xc39), (0xc3c, 0xc44), (0xc46, 0xc48),
    (0xc4a, 0xc4d), (0xc55, 0xc55), (0xc56, 0xc56), (0xc58, 0xc5a), (0xc5c, 0xc5c), (0xc5d, 0xc5d), (0xc60, 0xc63),
    (0xc66, 0xc6f), (0xc77, 0xc7f)]

/-- parser/tokeniser/scripts.hpp:942-945. -/
def pIsThaana : PropText :=
  .ranges false [(0x780, 0x7b1)]

/-- parser/tokeniser/scripts.hpp:947-950. -/
def pIsThai : PropText :=
  .ranges false [(0xe01, 0xe3a), (0xe40, 0xe5b)]

/-- parser/tokeniser/scripts.hpp:952-956. -/
def pIsTibetan : PropText :=
  .ranges false [(0xf00, 0xf47), (0xf49, 0xf6c), (0xf71, 0xf97), (0xf99, 0xfbc), (0xfbe, 0xfcc), (0xfce, 0xfd4),
    (0xfd9, 0xfd9), (0xfda, 0xfda)]

/-- parser/tokeniser/scripts.hpp:958-961. -/
def pIsTifinagh : PropText :=
  .ranges false [(0x2d30, 0x2d67), (0x2d6f, 0x2d6f), (0x2d70, 0x2d70), (0x2d7f, 0x2d7f)]

/-- parser/tokeniser/scripts.hpp:963-966. -/
def pIsTirhuta : PropText :=
  .ranges false [(0x11480, 0x114c7), (0x114d0, 0x114d9)]

/-- parser/tokeniser/scripts.hpp:968-971. -/
def pIsTodhri : PropText :=
  .ranges false [(0x105c0, 0x105f3)]

/-- parser/tokeniser/scripts.hpp:973-976. -/
def pIsTolong_Siki : PropText :=
  .ranges false [(0x11db0, 0x11ddb), (0x11de0, 0x11de9)]

/-- parser/tokeniser/scripts.hpp:978-981. -/
def pIsToto : PropText :=
  .ranges false [(0x1e290, 0x1e2ae)]

/-- parser/tokeniser/scripts.hpp:983-988. -/
def pIsTulu_Tigalari : PropText :=
  .ranges false [(0x11380, 0x11389), (0x1138b, 0x1138b), (0x1138e, 0x1138e), (0x11390, 0x113b5), (0x113b7, 0x113c0),
    (0x113c2, 0x113c2), (0x113c5, 0x113c5), (0x113c7, 0x113ca), (0x113cc, 0x113d5), (0x113d7, 0x113d7),
    (0x113d8, 0x113d8), (0x113e1, 0x113e1), (0x113e2, 0x113e2)]

/-- parser/tokeniser/scripts.hpp:990-993. -/
def pIsUgaritic : PropText :=
  .ranges false [(0x10380, 0x1039d), (0x1039f, 0x1039f)]

/-- parser/tokeniser/scripts.hpp:995-998. -/
def pIsVai : PropText :=
  .ranges false [(0xa500, 0xa62b)]

/-- parser/tokeniser/scripts.hpp:1000-1005. -/
def pIsVithkuqi : PropText :=
  .ranges false [(0x10570, 0x1057a), (0x1057c, 0x1058a), (0x1058c, 0x10592), (0x10594, 0x10594), (0x10595, 0x10595),
    (0x10597, 0x105a1), (0x105a3, 0x105b1), (0x105b3, 0x105b9), (0x105bb, 0x105bb), (0x105bc, 0x105bc)]

/-- parser/tokeniser/scripts.hpp:1007-1010. -/
def pIsWancho : PropText :=
  .ranges false [(0x1e2c0, 0x1e2f9), (0x1e2ff, 0x1e2ff)]

/-- parser/tokeniser/scripts.hpp:1012-1015. -/
def pIsWarang_Citi : PropText :=
  .ranges false [(0x118a0, 0x118f2), (0x118ff, 0x118ff)]

/-- parser/tokeniser/scripts.hpp:1017-1020. -/
def pIsYezidi : PropText :=
  .ranges false [(0x10e80, 0x10ea9), (0x10eab, 0x10ead), (0x10eb0, 0x10eb0), (0x10eb1, 0x10eb1)]

/-- parser/tokeniser/scripts.hpp:1022-1025. -/
def pIsYi : PropText :=
  .ranges false [(0xa000, 0xa48c), (0xa490, 0xa4c6)]

/-- parser/tokeniser/scripts.hpp:1027-1030. -/
def pIsZanabazar_Square : PropText :=
  .ranges false [(0x11a00, 0x11a47)]

/-- parser/tokeniser/table.inc:1-37: general categories and groups of them. -/
def categoryEntries : List (String × PropText) :=
  [("C", pC), ("Cc", pCc), ("Cf", pCf), ("Co", pCo), ("Cs", pCs), ("L", pL), ("LC", pLC), ("Ll", pLl), ("Lm", pLm),
   ("Lo", pLo), ("Lt", pLt), ("Lu", pLu), ("M", pM), ("Mc", pMc), ("Me", pMe), ("Mn", pMn), ("N", pN), ("Nd", pNd),
   ("Nl", pNl), ("No", pNo), ("P", pP), ("Pc", pPc), ("Pd", pPd), ("Pe", pPe), ("Pf", pPf), ("Pi", pPi), ("Po", pPo),
   ("Ps", pPs), ("S", pS), ("Sc", pSc), ("Sk", pSk), ("Sm", pSm), ("So", pSo), ("Z", pZ), ("Zl", pZl), ("Zp", pZp),
   ("Zs", pZs)]

/-- parser/tokeniser/table.inc:38-383: blocks; all names start with `In`. -/
def blockEntries : List (String × PropText) :=
  [("InBasic_Latin", pInBasic_Latin), ("InLatin-1_Supplement", pInLatin_1_Supplement),
   ("InLatin_Extended-A", pInLatin_Extended_A), ("InLatin_Extended-B", pInLatin_Extended_B),
   ("InIPA_Extensions", pInIPA_Extensions), ("InSpacing_Modifier_Letters", pInSpacing_Modifier_Letters),
   ("InCombining_Diacritical_Marks", pInCombining_Diacritical_Marks), ("InGreek_and_Coptic", pInGreek_and_Coptic),
   ("InCyrillic", pInCyrillic), ("InCyrillic_Supplement", pInCyrillic_Supplement), ("InArmenian", pInArmenian),
   ("InHebrew", pInHebrew), ("InArabic", pInArabic), ("InSyriac", pInSyriac),
   ("InArabic_Supplement", pInArabic_Supplement), ("InThaana", pInThaana), ("InNKo", pInNKo),
   ("InSamaritan", pInSamaritan), ("InMandaic", pInMandaic), ("InSyriac_Supplement", pInSyriac_Supplement),
   ("InArabic_Extended-B", pInArabic_Extended_B), ("InArabic_Extended-A", pInArabic_Extended_A),
   ("InDevanagari", pInDevanagari), ("InBengali", pInBengali), ("InGurmukhi", pInGurmukhi),
   ("InGujarati", pInGujarati), ("InOriya", pInOriya), ("InTamil", pInTamil), ("InTelugu", pInTelugu),
   ("InKannada", pInKannada), ("InMalayalam", pInMalayalam), ("InSinhala", pInSinhala), ("InThai", pInThai),
   ("InLao", pInLao), ("InTibetan", pInTibetan), ("InMyanmar", pInMyanmar), ("InGeorgian", pInGeorgian),
   ("InHangul_Jamo", pInHangul_Jamo), ("InEthiopic", pInEthiopic), ("InEthiopic_Supplement", pInEthiopic_Supplement),
   ("InCherokee", pInCherokee),
   ("InUnified_Canadian_Aboriginal_Syllabics", pInUnified_Canadian_Aboriginal_Syllabics), ("InOgham", pInOgham),
   ("InRunic", pInRunic), ("InTagalog", pInTagalog), ("InHanunoo", pInHanunoo), ("InBuhid", pInBuhid),
   ("InTagbanwa", pInTagbanwa), ("InKhmer", pInKhmer), ("InMongolian", pInMongolian),
   ("InUnified_Canadian_Aboriginal_Syllabics_Extended", pInUnified_Canadian_Aboriginal_Syllabics_Extended),
   ("InLimbu", pInLimbu), ("InTai_Le", pInTai_Le), ("InNew_Tai_Lue", pInNew_Tai_Lue),
   ("InKhmer_Symbols", pInKhmer_Symbols), ("InBuginese", pInBuginese), ("InTai_Tham", pInTai_Tham),
   ("InCombining_Diacritical_Marks_Extended", pInCombining_Diacritical_Marks_Extended), ("InBalinese", pInBalinese),
   ("InSundanese", pInSundanese), ("InBatak", pInBatak), ("InLepcha", pInLepcha), ("InOl_Chiki", pInOl_Chiki),
   ("InCyrillic_Extended-C", pInCyrillic_Extended_C), ("InGeorgian_Extended", pInGeorgian_Extended),
   ("InSundanese_Supplement", pInSundanese_Supplement), ("InVedic_Extensions", pInVedic_Extensions),
   ("InPhonetic_Extensions", pInPhonetic_Extensions),
   ("InPhonetic_Extensions_Supplement", pInPhonetic_Extensions_Supplement),
   ("InCombining_Diacritical_Marks_Supplement", pInCombining_Diacritical_Marks_Supplement),
   ("InLatin_Extended_Additional", pInLatin_Extended_Additional), ("InGreek_Extended", pInGreek_Extended),
   ("InGeneral_Punctuation", pInGeneral_Punctuation),
   ("InSuperscripts_and_Subscripts", pInSuperscripts_and_Subscripts), ("InCurrency_Symbols", pInCurrency_Symbols),
   ("InCombining_Diacritical_Marks_for_Symbols", pInCombining_Diacritical_Marks_for_Symbols),
   ("InLetterlike_Symbols", pInLetterlike_Symbols), ("InNumber_Forms", pInNumber_Forms), ("InArrows", pInArrows),
   ("InMathematical_Operators", pInMathematical_Operators),
   ("InMiscellaneous_Technical", pInMiscellaneous_Technical), ("InControl_Pictures", pInControl_Pictures),
   ("InOptical_Character_Recognition", pInOptical_Character_Recognition),
   ("InEnclosed_Alphanumerics", pInEnclosed_Alphanumerics), ("InBox_Drawing", pInBox_Drawing),
   ("InBlock_Elements", pInBlock_Elements), ("InGeometric_Shapes", pInGeometric_Shapes),
   ("InMiscellaneous_Symbols", pInMiscellaneous_Symbols), ("InDingbats", pInDingbats),
   ("InMiscellaneous_Mathematical_Symbols-A", pInMiscellaneous_Mathematical_Symbols_A),
   ("InSupplemental_Arrows-A", pInSupplemental_Arrows_A), ("InBraille_Patterns", pInBraille_Patterns),
   ("InSupplemental_Arrows-B", pInSupplemental_Arrows_B),
   ("InMiscellaneous_Mathematical_Symbols-B", pInMiscellaneous_Mathematical_Symbols_B),
   ("InSupplemental_Mathematical_Operators", pInSupplemental_Mathematical_Operators),
   ("InMiscellaneous_Symbols_and_Arrows", pInMiscellaneous_Symbols_and_Arrows), ("InGlagolitic", pInGlagolitic),
   ("InLatin_Extended-C", pInLatin_Extended_C), ("InCoptic", pInCoptic),
   ("InGeorgian_Supplement", pInGeorgian_Supplement), ("InTifinagh", pInTifinagh),
   ("InEthiopic_Extended", pInEthiopic_Extended), ("InCyrillic_Extended-A", pInCyrillic_Extended_A),
   ("InSupplemental_Punctuation", pInSupplemental_Punctuation),
   ("InCJK_Radicals_Supplement", pInCJK_Radicals_Supplement), ("InKangxi_Radicals", pInKangxi_Radicals),
   ("InIdeographic_Description_Characters", pInIdeographic_Description_Characters),
   ("InCJK_Symbols_and_Punctuation", pInCJK_Symbols_and_Punctuation), ("InHiragana", pInHiragana),
   ("InKatakana", pInKatakana), ("InBopomofo", pInBopomofo),
   ("InHangul_Compatibility_Jamo", pInHangul_Compatibility_Jamo), ("InKanbun", pInKanbun),
   ("InBopomofo_Extended", pInBopomofo_Extended), ("InCJK_Strokes", pInCJK_Strokes),
   ("InKatakana_Phonetic_Extensions", pInKatakana_Phonetic_Extensions),
   ("InEnclosed_CJK_Letters_and_Months", pInEnclosed_CJK_Letters_and_Months),
   ("InCJK_Compatibility", pInCJK_Compatibility),
   ("InCJK_Unified_Ideographs_Extension_A", pInCJK_Unified_Ideographs_Extension_A),
   ("InYijing_Hexagram_Symbols", pInYijing_Hexagram_Symbols),
   ("InCJK_Unified_Ideographs", pInCJK_Unified_Ideographs), ("InYi_Syllables", pInYi_Syllables),
   ("InYi_Radicals", pInYi_Radicals), ("InLisu", pInLisu), ("InVai", pInVai),
   ("InCyrillic_Extended-B", pInCyrillic_Extended_B), ("InBamum", pInBamum),
   ("InModifier_Tone_Letters", pInModifier_Tone_Letters), ("InLatin_Extended-D", pInLatin_Extended_D),
   ("InSyloti_Nagri", pInSyloti_Nagri), ("InCommon_Indic_Number_Forms", pInCommon_Indic_Number_Forms),
   ("InPhags-pa", pInPhags_pa), ("InSaurashtra", pInSaurashtra), ("InDevanagari_Extended", pInDevanagari_Extended),
   ("InKayah_Li", pInKayah_Li), ("InRejang", pInRejang), ("InHangul_Jamo_Extended-A", pInHangul_Jamo_Extended_A),
   ("InJavanese", pInJavanese), ("InMyanmar_Extended-B", pInMyanmar_Extended_B), ("InCham", pInCham),
   ("InMyanmar_Extended-A", pInMyanmar_Extended_A), ("InTai_Viet", pInTai_Viet),
   ("InMeetei_Mayek_Extensions", pInMeetei_Mayek_Extensions), ("InEthiopic_Extended-A", pInEthiopic_Extended_A),
   ("InLatin_Extended-E", pInLatin_Extended_E), ("InCherokee_Supplement", pInCherokee_Supplement),
   ("InMeetei_Mayek", pInMeetei_Mayek), ("InHangul_Syllables", pInHangul_Syllables),
   ("InHangul_Jamo_Extended-B", pInHangul_Jamo_Extended_B), ("InHigh_Surrogates", pInHigh_Surrogates),
   ("InHigh_Private_Use_Surrogates", pInHigh_Private_Use_Surrogates), ("InLow_Surrogates", pInLow_Surrogates),
   ("InPrivate_Use_Area", pInPrivate_Use_Area), ("InCJK_Compatibility_Ideographs", pInCJK_Compatibility_Ideographs),
   ("InAlphabetic_Presentation_Forms", pInAlphabetic_Presentation_Forms),
   ("InArabic_Presentation_Forms-A", pInArabic_Presentation_Forms_A),
   ("InVariation_Selectors", pInVariation_Selectors), ("InVertical_Forms", pInVertical_Forms),
   ("InCombining_Half_Marks", pInCombining_Half_Marks), ("InCJK_Compatibility_Forms", pInCJK_Compatibility_Forms),
   ("InSmall_Form_Variants", pInSmall_Form_Variants),
   ("InArabic_Presentation_Forms-B", pInArabic_Presentation_Forms_B),
   ("InHalfwidth_and_Fullwidth_Forms", pInHalfwidth_and_Fullwidth_Forms), ("InSpecials", pInSpecials),
   ("InLinear_B_Syllabary", pInLinear_B_Syllabary), ("InLinear_B_Ideograms", pInLinear_B_Ideograms),
   ("InAegean_Numbers", pInAegean_Numbers), ("InAncient_Greek_Numbers", pInAncient_Greek_Numbers),
   ("InAncient_Symbols", pInAncient_Symbols), ("InPhaistos_Disc", pInPhaistos_Disc), ("InLycian", pInLycian),
   ("InCarian", pInCarian), ("InCoptic_Epact_Numbers", pInCoptic_Epact_Numbers), ("InOld_Italic", pInOld_Italic),
   ("InGothic", pInGothic), ("InOld_Permic", pInOld_Permic), ("InUgaritic", pInUgaritic),
   ("InOld_Persian", pInOld_Persian), ("InDeseret", pInDeseret), ("InShavian", pInShavian),
   ("InOsmanya", pInOsmanya), ("InOsage", pInOsage), ("InElbasan", pInElbasan),
   ("InCaucasian_Albanian", pInCaucasian_Albanian), ("InVithkuqi", pInVithkuqi), ("InTodhri", pInTodhri),
   ("InLinear_A", pInLinear_A), ("InLatin_Extended-F", pInLatin_Extended_F),
   ("InCypriot_Syllabary", pInCypriot_Syllabary), ("InImperial_Aramaic", pInImperial_Aramaic),
   ("InPalmyrene", pInPalmyrene), ("InNabataean", pInNabataean), ("InHatran", pInHatran),
   ("InPhoenician", pInPhoenician), ("InLydian", pInLydian), ("InSidetic", pInSidetic),
   ("InMeroitic_Hieroglyphs", pInMeroitic_Hieroglyphs), ("InMeroitic_Cursive", pInMeroitic_Cursive),
   ("InKharoshthi", pInKharoshthi), ("InOld_South_Arabian", pInOld_South_Arabian),
   ("InOld_North_Arabian", pInOld_North_Arabian), ("InManichaean", pInManichaean), ("InAvestan", pInAvestan),
   ("InInscriptional_Parthian", pInInscriptional_Parthian), ("InInscriptional_Pahlavi", pInInscriptional_Pahlavi),
   ("InPsalter_Pahlavi", pInPsalter_Pahlavi), ("InOld_Turkic", pInOld_Turkic), ("InOld_Hungarian", pInOld_Hungarian),
   ("InHanifi_Rohingya", pInHanifi_Rohingya), ("InGaray", pInGaray),
   ("InRumi_Numeral_Symbols", pInRumi_Numeral_Symbols), ("InYezidi", pInYezidi),
   ("InArabic_Extended-C", pInArabic_Extended_C), ("InOld_Sogdian", pInOld_Sogdian), ("InSogdian", pInSogdian),
   ("InOld_Uyghur", pInOld_Uyghur), ("InChorasmian", pInChorasmian), ("InElymaic", pInElymaic),
   ("InBrahmi", pInBrahmi), ("InKaithi", pInKaithi), ("InSora_Sompeng", pInSora_Sompeng), ("InChakma", pInChakma),
   ("InMahajani", pInMahajani), ("InSharada", pInSharada), ("InSinhala_Archaic_Numbers", pInSinhala_Archaic_Numbers),
   ("InKhojki", pInKhojki), ("InMultani", pInMultani), ("InKhudawadi", pInKhudawadi), ("InGrantha", pInGrantha),
   ("InTulu-Tigalari", pInTulu_Tigalari), ("InNewa", pInNewa), ("InTirhuta", pInTirhuta), ("InSiddham", pInSiddham),
   ("InModi", pInModi), ("InMongolian_Supplement", pInMongolian_Supplement), ("InTakri", pInTakri),
   ("InMyanmar_Extended-C", pInMyanmar_Extended_C), ("InAhom", pInAhom), ("InDogra", pInDogra),
   ("InWarang_Citi", pInWarang_Citi), ("InDives_Akuru", pInDives_Akuru), ("InNandinagari", pInNandinagari),
   ("InZanabazar_Square", pInZanabazar_Square), ("InSoyombo", pInSoyombo),
   ("InUnified_Canadian_Aboriginal_Syllabics_Extended-A", pInUnified_Canadian_Aboriginal_Syllabics_Extended_A),
   ("InPau_Cin_Hau", pInPau_Cin_Hau), ("InDevanagari_Extended-A", pInDevanagari_Extended_A),
   ("InSharada_Supplement", pInSharada_Supplement), ("InSunuwar", pInSunuwar), ("InBhaiksuki", pInBhaiksuki),
   ("InMarchen", pInMarchen), ("InMasaram_Gondi", pInMasaram_Gondi), ("InGunjala_Gondi", pInGunjala_Gondi),
   ("InTolong_Siki", pInTolong_Siki), ("InMakasar", pInMakasar), ("InKawi", pInKawi),
   ("InLisu_Supplement", pInLisu_Supplement), ("InTamil_Supplement", pInTamil_Supplement),
   ("InCuneiform", pInCuneiform), ("InCuneiform_Numbers_and_Punctuation", pInCuneiform_Numbers_and_Punctuation),
   ("InEarly_Dynastic_Cuneiform", pInEarly_Dynastic_Cuneiform), ("InCypro-Minoan", pInCypro_Minoan),
   ("InEgyptian_Hieroglyphs", pInEgyptian_Hieroglyphs),
   ("InEgyptian_Hieroglyph_Format_Controls", pInEgyptian_Hieroglyph_Format_Controls),
   ("InEgyptian_Hieroglyphs_Extended-A", pInEgyptian_Hieroglyphs_Extended_A),
   ("InAnatolian_Hieroglyphs", pInAnatolian_Hieroglyphs), ("InGurung_Khema", pInGurung_Khema),
   ("InBamum_Supplement", pInBamum_Supplement), ("InMro", pInMro), ("InTangsa", pInTangsa),
   ("InBassa_Vah", pInBassa_Vah), ("InPahawh_Hmong", pInPahawh_Hmong), ("InKirat_Rai", pInKirat_Rai),
   ("InMedefaidrin", pInMedefaidrin), ("InBeria_Erfe", pInBeria_Erfe), ("InMiao", pInMiao),
   ("InIdeographic_Symbols_and_Punctuation", pInIdeographic_Symbols_and_Punctuation), ("InTangut", pInTangut),
   ("InTangut_Components", pInTangut_Components), ("InKhitan_Small_Script", pInKhitan_Small_Script),
   ("InTangut_Supplement", pInTangut_Supplement),
   ("InTangut_Components_Supplement", pInTangut_Components_Supplement), ("InKana_Extended-B", pInKana_Extended_B),
   ("InKana_Supplement", pInKana_Supplement), ("InKana_Extended-A", pInKana_Extended_A),
   ("InSmall_Kana_Extension", pInSmall_Kana_Extension), ("InNushu", pInNushu), ("InDuployan", pInDuployan),
   ("InShorthand_Format_Controls", pInShorthand_Format_Controls),
   ("InSymbols_for_Legacy_Computing_Supplement", pInSymbols_for_Legacy_Computing_Supplement),
   ("InMiscellaneous_Symbols_Supplement", pInMiscellaneous_Symbols_Supplement),
   ("InZnamenny_Musical_Notation", pInZnamenny_Musical_Notation),
   ("InByzantine_Musical_Symbols", pInByzantine_Musical_Symbols), ("InMusical_Symbols", pInMusical_Symbols),
   ("InAncient_Greek_Musical_Notation", pInAncient_Greek_Musical_Notation),
   ("InKaktovik_Numerals", pInKaktovik_Numerals), ("InMayan_Numerals", pInMayan_Numerals),
   ("InTai_Xuan_Jing_Symbols", pInTai_Xuan_Jing_Symbols), ("InCounting_Rod_Numerals", pInCounting_Rod_Numerals),
   ("InMathematical_Alphanumeric_Symbols", pInMathematical_Alphanumeric_Symbols),
   ("InSutton_SignWriting", pInSutton_SignWriting), ("InLatin_Extended-G", pInLatin_Extended_G),
   ("InGlagolitic_Supplement", pInGlagolitic_Supplement), ("InCyrillic_Extended-D", pInCyrillic_Extended_D),
   ("InNyiakeng_Puachue_Hmong", pInNyiakeng_Puachue_Hmong), ("InToto", pInToto), ("InWancho", pInWancho),
   ("InNag_Mundari", pInNag_Mundari), ("InOl_Onal", pInOl_Onal), ("InTai_Yo", pInTai_Yo),
   ("InEthiopic_Extended-B", pInEthiopic_Extended_B), ("InMende_Kikakui", pInMende_Kikakui), ("InAdlam", pInAdlam),
   ("InIndic_Siyaq_Numbers", pInIndic_Siyaq_Numbers), ("InOttoman_Siyaq_Numbers", pInOttoman_Siyaq_Numbers),
   ("InArabic_Mathematical_Alphabetic_Symbols", pInArabic_Mathematical_Alphabetic_Symbols),
   ("InMahjong_Tiles", pInMahjong_Tiles), ("InDomino_Tiles", pInDomino_Tiles), ("InPlaying_Cards", pInPlaying_Cards),
   ("InEnclosed_Alphanumeric_Supplement", pInEnclosed_Alphanumeric_Supplement),
   ("InEnclosed_Ideographic_Supplement", pInEnclosed_Ideographic_Supplement),
   ("InMiscellaneous_Symbols_and_Pictographs", pInMiscellaneous_Symbols_and_Pictographs),
   ("InEmoticons", pInEmoticons), ("InOrnamental_Dingbats", pInOrnamental_Dingbats),
   ("InTransport_and_Map_Symbols", pInTransport_and_Map_Symbols), ("InAlchemical_Symbols", pInAlchemical_Symbols),
   ("InGeometric_Shapes_Extended", pInGeometric_Shapes_Extended),
   ("InSupplemental_Arrows-C", pInSupplemental_Arrows_C),
   ("InSupplemental_Symbols_and_Pictographs", pInSupplemental_Symbols_and_Pictographs),
   ("InChess_Symbols", pInChess_Symbols),
   ("InSymbols_and_Pictographs_Extended-A", pInSymbols_and_Pictographs_Extended_A),
   ("InSymbols_for_Legacy_Computing", pInSymbols_for_Legacy_Computing),
   ("InCJK_Unified_Ideographs_Extension_B", pInCJK_Unified_Ideographs_Extension_B),
   ("InCJK_Unified_Ideographs_Extension_C", pInCJK_Unified_Ideographs_Extension_C),
   ("InCJK_Unified_Ideographs_Extension_D", pInCJK_Unified_Ideographs_Extension_D),
   ("InCJK_Unified_Ideographs_Extension_E", pInCJK_Unified_Ideographs_Extension_E),
   ("InCJK_Unified_Ideographs_Extension_F", pInCJK_Unified_Ideographs_Extension_F),
   ("InCJK_Unified_Ideographs_Extension_I", pInCJK_Unified_Ideographs_Extension_I),
   ("InCJK_Compatibility_Ideographs_Supplement", pInCJK_Compatibility_Ideographs_Supplement),
   ("InCJK_Unified_Ideographs_Extension_G", pInCJK_Unified_Ideographs_Extension_G),
   ("InCJK_Unified_Ideographs_Extension_H", pInCJK_Unified_Ideographs_Extension_H),
   ("InCJK_Unified_Ideographs_Extension_J", pInCJK_Unified_Ideographs_Extension_J), ("InTags", pInTags),
   ("InVariation_Selectors_Supplement", pInVariation_Selectors_Supplement),
   ("InSupplementary_Private_Use_Area-A", pInSupplementary_Private_Use_Area_A),
   ("InSupplementary_Private_Use_Area-B", pInSupplementary_Private_Use_Area_B)]

/-- parser/tokeniser/table.inc:384-557: scripts; all names start with `Is`. -/
def scriptEntries : List (String × PropText) :=
  [("IsAdlam", pIsAdlam), ("IsAhom", pIsAhom), ("IsAnatolian_Hieroglyphs", pIsAnatolian_Hieroglyphs),
   ("IsArabic", pIsArabic), ("IsArmenian", pIsArmenian), ("IsAvestan", pIsAvestan), ("IsBalinese", pIsBalinese),
   ("IsBamum", pIsBamum), ("IsBassa_Vah", pIsBassa_Vah), ("IsBatak", pIsBatak), ("IsBengali", pIsBengali),
   ("IsBeria_Erfe", pIsBeria_Erfe), ("IsBhaiksuki", pIsBhaiksuki), ("IsBopomofo", pIsBopomofo),
   ("IsBrahmi", pIsBrahmi), ("IsBraille", pIsBraille), ("IsBuginese", pIsBuginese), ("IsBuhid", pIsBuhid),
   ("IsCanadian_Aboriginal", pIsCanadian_Aboriginal), ("IsCarian", pIsCarian),
   ("IsCaucasian_Albanian", pIsCaucasian_Albanian), ("IsChakma", pIsChakma), ("IsCham", pIsCham),
   ("IsCherokee", pIsCherokee), ("IsChorasmian", pIsChorasmian), ("IsCommon", pIsCommon), ("IsCoptic", pIsCoptic),
   ("IsCuneiform", pIsCuneiform), ("IsCypriot", pIsCypriot), ("IsCypro_Minoan", pIsCypro_Minoan),
   ("IsCyrillic", pIsCyrillic), ("IsDeseret", pIsDeseret), ("IsDevanagari", pIsDevanagari),
   ("IsDives_Akuru", pIsDives_Akuru), ("IsDogra", pIsDogra), ("IsDuployan", pIsDuployan),
   ("IsEgyptian_Hieroglyphs", pIsEgyptian_Hieroglyphs), ("IsElbasan", pIsElbasan), ("IsElymaic", pIsElymaic),
   ("IsEthiopic", pIsEthiopic), ("IsGaray", pIsGaray), ("IsGeorgian", pIsGeorgian), ("IsGlagolitic", pIsGlagolitic),
   ("IsGothic", pIsGothic), ("IsGrantha", pIsGrantha), ("IsGreek", pIsGreek), ("IsGujarati", pIsGujarati),
   ("IsGunjala_Gondi", pIsGunjala_Gondi), ("IsGurmukhi", pIsGurmukhi), ("IsGurung_Khema", pIsGurung_Khema),
   ("IsHan", pIsHan), ("IsHangul", pIsHangul), ("IsHanifi_Rohingya", pIsHanifi_Rohingya), ("IsHanunoo", pIsHanunoo),
   ("IsHatran", pIsHatran), ("IsHebrew", pIsHebrew), ("IsHiragana", pIsHiragana),
   ("IsImperial_Aramaic", pIsImperial_Aramaic), ("IsInherited", pIsInherited),
   ("IsInscriptional_Pahlavi", pIsInscriptional_Pahlavi), ("IsInscriptional_Parthian", pIsInscriptional_Parthian),
   ("IsJavanese", pIsJavanese), ("IsKaithi", pIsKaithi), ("IsKannada", pIsKannada), ("IsKatakana", pIsKatakana),
   ("IsKawi", pIsKawi), ("IsKayah_Li", pIsKayah_Li), ("IsKharoshthi", pIsKharoshthi),
   ("IsKhitan_Small_Script", pIsKhitan_Small_Script), ("IsKhmer", pIsKhmer), ("IsKhojki", pIsKhojki),
   ("IsKhudawadi", pIsKhudawadi), ("IsKirat_Rai", pIsKirat_Rai), ("IsLao", pIsLao), ("IsLatin", pIsLatin),
   ("IsLepcha", pIsLepcha), ("IsLimbu", pIsLimbu), ("IsLinear_A", pIsLinear_A), ("IsLinear_B", pIsLinear_B),
   ("IsLisu", pIsLisu), ("IsLycian", pIsLycian), ("IsLydian", pIsLydian), ("IsMahajani", pIsMahajani),
   ("IsMakasar", pIsMakasar), ("IsMalayalam", pIsMalayalam), ("IsMandaic", pIsMandaic),
   ("IsManichaean", pIsManichaean), ("IsMarchen", pIsMarchen), ("IsMasaram_Gondi", pIsMasaram_Gondi),
   ("IsMedefaidrin", pIsMedefaidrin), ("IsMeetei_Mayek", pIsMeetei_Mayek), ("IsMende_Kikakui", pIsMende_Kikakui),
   ("IsMeroitic_Cursive", pIsMeroitic_Cursive), ("IsMeroitic_Hieroglyphs", pIsMeroitic_Hieroglyphs),
   ("IsMiao", pIsMiao), ("IsModi", pIsModi), ("IsMongolian", pIsMongolian), ("IsMro", pIsMro),
   ("IsMultani", pIsMultani), ("IsMyanmar", pIsMyanmar), ("IsNabataean", pIsNabataean),
   ("IsNag_Mundari", pIsNag_Mundari), ("IsNandinagari", pIsNandinagari), ("IsNew_Tai_Lue", pIsNew_Tai_Lue),
   ("IsNewa", pIsNewa), ("IsNko", pIsNko), ("IsNushu", pIsNushu),
   ("IsNyiakeng_Puachue_Hmong", pIsNyiakeng_Puachue_Hmong), ("IsOgham", pIsOgham), ("IsOl_Chiki", pIsOl_Chiki),
   ("IsOl_Onal", pIsOl_Onal), ("IsOld_Hungarian", pIsOld_Hungarian), ("IsOld_Italic", pIsOld_Italic),
   ("IsOld_North_Arabian", pIsOld_North_Arabian), ("IsOld_Permic", pIsOld_Permic), ("IsOld_Persian", pIsOld_Persian),
   ("IsOld_Sogdian", pIsOld_Sogdian), ("IsOld_South_Arabian", pIsOld_South_Arabian), ("IsOld_Turkic", pIsOld_Turkic),
   ("IsOld_Uyghur", pIsOld_Uyghur), ("IsOriya", pIsOriya), ("IsOsage", pIsOsage), ("IsOsmanya", pIsOsmanya),
   ("IsPahawh_Hmong", pIsPahawh_Hmong), ("IsPalmyrene", pIsPalmyrene), ("IsPau_Cin_Hau", pIsPau_Cin_Hau),
   ("IsPhags_Pa", pIsPhags_Pa), ("IsPhoenician", pIsPhoenician), ("IsPsalter_Pahlavi", pIsPsalter_Pahlavi),
   ("IsRejang", pIsRejang), ("IsRunic", pIsRunic), ("IsSamaritan", pIsSamaritan), ("IsSaurashtra", pIsSaurashtra),
   ("IsSharada", pIsSharada), ("IsShavian", pIsShavian), ("IsSiddham", pIsSiddham), ("IsSidetic", pIsSidetic),
   ("IsSignWriting", pIsSignWriting), ("IsSinhala", pIsSinhala), ("IsSogdian", pIsSogdian),
   ("IsSora_Sompeng", pIsSora_Sompeng), ("IsSoyombo", pIsSoyombo), ("IsSundanese", pIsSundanese),
   ("IsSunuwar", pIsSunuwar), ("IsSyloti_Nagri", pIsSyloti_Nagri), ("IsSyriac", pIsSyriac),
   ("IsTagalog", pIsTagalog), ("IsTagbanwa", pIsTagbanwa), ("IsTai_Le", pIsTai_Le), ("IsTai_Tham", pIsTai_Tham),
   ("IsTai_Viet", pIsTai_Viet), ("IsTai_Yo", pIsTai_Yo), ("IsTakri", pIsTakri), ("IsTamil", pIsTamil),
   ("IsTangsa", pIsTangsa), ("IsTangut", pIsTangut), ("IsTelugu", pIsTelugu), ("IsThaana", pIsThaana),
   ("IsThai", pIsThai), ("IsTibetan", pIsTibetan), ("IsTifinagh", pIsTifinagh), ("IsTirhuta", pIsTirhuta),
   ("IsTodhri", pIsTodhri), ("IsTolong_Siki", pIsTolong_Siki), ("IsToto", pIsToto),
   ("IsTulu_Tigalari", pIsTulu_Tigalari), ("IsUgaritic", pIsUgaritic), ("IsVai", pIsVai),
   ("IsVithkuqi", pIsVithkuqi), ("IsWancho", pIsWancho), ("IsWarang_Citi", pIsWarang_Citi), ("IsYezidi", pIsYezidi),
   ("IsYi", pIsYi), ("IsZanabazar_Square", pIsZanabazar_Square)]

/-- parser/tokeniser/table.inc:1-557. -/
def table : List (String × PropText) := categoryEntries ++ blockEntries ++ scriptEntries

/-- re_tokeniser_helper.hpp:1165-1184: the first entry of the table with this name. -/
def entry (name : List Nat) : Option PropText := (table.find? fun e => chars e.1 = name).map (·.2)

/-- re_tokeniser_helper.hpp:1182-1183: its text. -/
def lookupText (name : List Nat) : Option (List Nat) := (entry name).map text

end Unicode
end Lexertl

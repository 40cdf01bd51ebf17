import Verif.Model.Utf

/-
Specification vocabulary for UTF-8 and UTF-16 (Unicode standard, tables 3-5 and 3-6), and
for byte order.
-/
namespace Lexertl.Spec

/-- The UTF-8 form of a code point (the four byte form also for numbers above 10FFFF, which
are not code points). -/
def utf8 (c : Nat) : List Nat :=
  if c < 0x80 then [c]
  else if c < 0x800 then [0xc0 + c / 64, 0x80 + c % 64]
  else if c < 0x10000 then [0xe0 + c / 4096, 0x80 + c / 64 % 64, 0x80 + c % 64]
  else [0xf0 + c / 262144, 0x80 + c / 4096 % 64, 0x80 + c / 64 % 64, 0x80 + c % 64]

/-- The UTF-16 form of a code point. -/
def utf16 (c : Nat) : List Nat :=
  if c < 0x10000 then [c] else [0xd800 + (c - 0x10000) / 1024, 0xdc00 + (c - 0x10000) % 1024]

/-- A Unicode scalar value. -/
def Scalar (c : Nat) : Prop := c < 0xd800 ∨ (0xdfff < c ∧ c ≤ 0x10ffff)

/-- The bytes the UTF-8 decoder takes for a number: a lead byte and as many continuation
bytes as it says.  Besides the UTF-8 forms these are overlong forms, surrogates and numbers
above 10FFFF. -/
inductive LaxUtf8 : Nat → List Nat → Prop
  | one (a : Nat) : a < 0x80 → LaxUtf8 a [a]
  | two (a b : Nat) : a < 32 → b < 64 → LaxUtf8 (64 * a + b) [0xc0 + a, 0x80 + b]
  | three (a b c : Nat) : a < 16 → b < 64 → c < 64 → LaxUtf8 (4096 * a + 64 * b + c) [0xe0 + a, 0x80 + b, 0x80 + c]
  | four (a b c d : Nat) : a < 8 → b < 64 → c < 64 → d < 64 →
      LaxUtf8 (262144 * a + 4096 * b + 64 * c + d) [0xf0 + a, 0x80 + b, 0x80 + c, 0x80 + d]

/-- The iterators reachable by the constructor and `++`, also after exceptions. -/
inductive Reached (next : UtfIn → UtfIn × M Unit) : UtfIn → Prop
  | new : Reached next (UtfIn.new next 0).1
  | inc (s : UtfIn) : Reached next s → Reached next (s.inc next).1

/-- Byte `k` (from the low end) of a value. -/
def byteAt (v k : Nat) : Nat := v / 256 ^ k % 256

end Lexertl.Spec

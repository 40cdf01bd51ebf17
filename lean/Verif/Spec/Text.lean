import Verif.Model.Rules
import Verif.Spec.Syntax

/-
Specification vocabulary for regex texts: what is assumed about the environment of the
tokeniser, and outcomes of calls.
-/
namespace Lexertl.Spec

/-- A result satisfying `Q`, or an exception; not undefined behaviour, and not a loop that
goes on for ever. -/
def Total {α : Type} (Q : α → Prop) : M α → Prop
  | .ok a => Q a
  | .error (.throw _) => True
  | .error _ => False

/-- A charset: in normal form, not empty, all characters at most `max`. -/
structure CharsetOk (max : Nat) (t : Token) : Prop where
  normal : Normal t
  within : Within max t
  ne : t ≠ []

/-- An entry of a case folding table: the target range is as long as the source range and
consists of characters. -/
def FoldOk (max : Nat) (p : FoldPair) : Prop :=
  p.1.1 ≤ p.1.2 ∧ (if p.2.1 ≤ p.2.2 then p.2.1 + (p.1.2 - p.1.1) ≤ p.2.2 ∧ p.2.2 ≤ max
    else p.2.2 + (p.1.2 - p.1.1) ≤ p.2.1 ∧ p.2.1 ≤ max)

instance (max : Nat) (p : FoldPair) : Decidable (FoldOk max p) := by unfold FoldOk; infer_instance

/-- The environment is sane: at least 7 bit characters, case mapping stays within the
characters, tables are tables of characters, the classes of the locale do not contain `[`
and `\\`, and the texts of Unicode properties refer to each other at most
`charsetDepth - 2` deep (in `unicode.hpp`: twice). -/
structure TokEnvOk (E : TokEnv) : Prop where
  big : 127 ≤ E.max
  byte : E.size = 1 → E.max = 255
  upper : ∀ c ≤ E.max, E.upper c ≤ E.max
  lower : ∀ c ≤ E.max, E.lower c ≤ E.max
  fold2 : ∀ p ∈ E.fold2, FoldOk E.max p
  fold4 : ∀ p ∈ E.fold4, FoldOk E.max p ∧ p.2.1 ≤ p.2.2
  classes : ∀ c, (E.isAlnum c || E.isAlpha c || E.isLower c || E.isUpper c) = true → c ≠ 91 ∧ c ≠ 92
  unicode : ∀ name str, E.unicode name = some str → ∀ c ∈ str, c ≤ E.max
  nest : ∀ icase d name str, charsetDepth ≤ d + 2 → d ≤ charsetDepth → E.unicode name = some str →
    charset E icase d str.tail ≠ .error .fuel

/-- The characters of the text are characters of the environment. -/
def TextOk (E : TokEnv) (cs : List Nat) : Prop := ∀ c ∈ cs, c ≤ E.max

/-- No number in the text overflows `std::size_t`, and no repeat count starts with a
superfluous `0`. -/
structure PlainCounts (cs : List Nat) : Prop where
  small : ∀ ds, IsDec ds → ds <:+: cs → decVal ds < 2 ^ 64
  unpadded : ∀ d, isDigit d = true → ¬ [123, 48, d] <:+: cs

/-- A reference `{name}` occurs in the text. -/
def Refers (name cs : List Nat) : Prop := 123 :: name ++ [125] <:+: cs

end Lexertl.Spec

import Verif.Spec.Regex

/-
Specification vocabulary for lexing: the part of the input that is matched, and
what "longest match, earliest rule" means.
-/
namespace Lexertl.Spec

/-- The characters of `inp` from position `p` up to, not including, position `k`. -/
def text (inp : List Nat) (p k : Nat) : List Sym := ((inp.drop p).take (k - p)).map .ch

/-- The rule `e` matches `w` at a position which is (`atLine`) or is not at the
start of a line: a leading `^` is satisfied only there. -/
def MatchesAt (atLine : Bool) (e : Option Re) (w : List Sym) : Prop :=
  RMatches e w ∨ (atLine = true ∧ RMatches e (.bol :: w))

/-- What the lexer does in general.  At the start of a line a rule with some word
starting with `^` matches only by such words; `^a|b` does not match `b` there. -/
def LineMatch (atLine : Bool) (e : Option Re) (w : List Sym) : Prop :=
  (atLine = true ∧ RMatches e (.bol :: w)) ∨
  (¬ (atLine = true ∧ ∃ v, RMatches e (.bol :: v)) ∧ RMatches e w)

/-- `L e w` says that rule `e` matches `w`.  Among the rules `es`, `k` is the end of
the longest non-empty text from `p` on, not beyond `eoi`, that some rule matches, and
`j` is the number of the first rule matching exactly that text. -/
structure Best (L : Option Re → List Sym → Prop) (es : List (Option Re)) (inp : List Nat)
    (p eoi k j : Nat) : Prop where
  nonempty : p < k
  inside : k ≤ eoi
  hit : ∃ e, es[j]? = some e ∧ L e (text inp p k)
  earliest : ∀ (i : Nat) (e : Option Re), i < j → es[i]? = some e → ¬ L e (text inp p k)
  longest : ∀ k', k < k' → k' ≤ eoi → ∀ e ∈ es, ¬ L e (text inp p k')

/-- No rule matches a non-empty text from `p` on. -/
def NoMatch (L : Option Re → List Sym → Prop) (es : List (Option Re)) (inp : List Nat)
    (p eoi : Nat) : Prop := ∀ k, p < k → k ≤ eoi → ∀ e ∈ es, ¬ L e (text inp p k)

/-- `j` is the first rule matching the empty text. -/
structure FirstEmpty (es : List (Option Re)) (j : Nat) : Prop where
  hit : ∃ e, es[j]? = some e ∧ RMatches e []
  earliest : ∀ (i : Nat) (e : Option Re), i < j → es[i]? = some e → ¬ RMatches e []

/-- No rule matches the empty text. -/
def NoEmpty (es : List (Option Re)) : Prop := ∀ e ∈ es, ¬ RMatches e []

/-- Rule number `j` can win: there is a text, at the start of a line or elsewhere, which
it matches and no earlier rule matches. -/
def CanWin (es : List (Option Re)) (j : Nat) : Prop :=
  ∃ (atLine : Bool) (cs : List Nat), (∃ e, es[j]? = some e ∧ LineMatch atLine e (cs.map .ch)) ∧
    ∀ (i : Nat) (e : Option Re), i < j → es[i]? = some e → ¬ LineMatch atLine e (cs.map .ch)

/-- `^` is the first thing in the expression and occurs nowhere else. -/
def Re.startsBol : Re → Bool
  | bol => true
  | seq l r => l.startsBol && r.noBol
  | _ => false

/-- Expressions `r` and `^r` where `r` has no `^`. -/
def PlainOrBol : Option Re → Prop
  | none => True
  | some r => r.noBol = true ∨ r.startsBol = true

/-- No `^` at all. -/
def NoBol : Option Re → Prop
  | none => True
  | some r => r.noBol = true

/-- No `$` at all. -/
def NoEol : Option Re → Prop
  | none => True
  | some r => r.noEol = true

/-- No non-greedy operators. -/
def AllGreedy : Option Re → Prop
  | none => True
  | some r => r.greedy = true

/-- Table lookups per input character: one for single byte characters, else one for each
of the two or three bytes of the character. -/
def bytesOf (tr : Traits) : Nat := if tr.compressed then if tr.char24 then 3 else 2 else 1

/-- Number of characters: bytes, 16 bit characters, or code points. -/
def charsOf (tr : Traits) : Nat := if tr.compressed then if tr.char24 then 0x110000 else 0x10000 else 256

/-- Ranges of code points which a machine with three byte characters represents
faithfully: those inside two neighbouring planes (of 65536 code points), and those
from below 256 to the last code point. -/
def FewPlanes (r : Nat × Nat) : Prop := r.2 / 65536 ≤ r.1 / 65536 + 1 ∨ (r.1 < 256 ∧ r.2 = 0x10ffff)

instance (r : Nat × Nat) : Decidable (FewPlanes r) := by unfold FewPlanes; infer_instance

/-- Bound on the number of byte charsets made for a charset. -/
def slotsOf (tr : Traits) (t : List (Nat × Nat)) : Nat := if tr.compressed then bytesOf tr * (5 * t.length) else 1

/-- Bound on the number of byte charsets made for an expression. -/
def Re.slots (tr : Traits) : Re → Nat
  | chars t => slotsOf tr t
  | bol => 0
  | eol => 0
  | seq l r => l.slots tr + r.slots tr
  | alt l r => l.slots tr + r.slots tr
  | opt r _ => r.slots tr
  | star r _ => r.slots tr
  | plus r _ => r.slots tr
  | rep r _ _ _ => r.slots tr

/-- Bound on the number of byte charsets made for a rule. -/
def setsOf (tr : Traits) : Option Re → Nat
  | none => 0
  | some r => r.slots tr

/-- Every charset of the rule is a non-empty set of characters in normal form; over
code points its ranges are among those faithfully represented. -/
def CharSets (tr : Traits) : Option Re → Prop
  | none => True
  | some r => r.AllChars fun t => Normal t ∧ t ≠ [] ∧ Within (charsOf tr - 1) t ∧
      (tr.compressed = true → tr.char24 = true → ∀ x ∈ t, FewPlanes x)

/-- Over code points, every range of the rule lies in two neighbouring planes. -/
def TwoPlanes (tr : Traits) : Option Re → Prop
  | none => True
  | some r => r.AllChars fun t => tr.compressed = true → tr.char24 = true → ∀ x ∈ t, x.2 / 65536 ≤ x.1 / 65536 + 1

end Lexertl.Spec

import Verif.Model.UnicodeTables
import Verif.Spec.Reads

/-
Specification vocabulary for Unicode properties: the members of a property, by the tables.
-/
namespace Lexertl.Spec

/-- `c` is listed: one of the characters, or in one of the ranges. -/
def Listed (rs : List (Nat × Nat)) (c : Nat) : Prop := ∃ r ∈ rs, r.1 ≤ c ∧ c ≤ r.2

/-- The character `c` has the property `name`: the table has an entry of this name which
lists `c`, or which refers to a property of `c`. -/
inductive HasProp : String → Nat → Prop
  | listed (name up rs c) : (name, PropText.ranges up rs) ∈ Unicode.table → Listed rs c → HasProp name c
  | refers (name names n c) : (name, PropText.props names) ∈ Unicode.table → n ∈ names → HasProp n c → HasProp name c

/-- The name is in the table. -/
def IsProp (name : String) : Prop := ∃ p, (name, p) ∈ Unicode.table

/-- `\p{name}`. -/
def propEscape (name : String) : List Nat := 92 :: 112 :: 123 :: chars name ++ [125]

/-- The general categories. -/
def categories : List String :=
  ["Cc", "Cf", "Co", "Cs", "Ll", "Lm", "Lo", "Lt", "Lu", "Mc", "Me", "Mn", "Nd", "Nl", "No", "Pc", "Pd", "Pe", "Pf", "Pi", "Po", "Ps",
   "Sc", "Sk", "Sm", "So", "Zl", "Zp", "Zs"]

/-- The names of blocks. -/
def IsBlock (name : String) : Prop := ∃ p, (name, p) ∈ Unicode.blockEntries

/-- The names of scripts. -/
def IsScript (name : String) : Prop := ∃ p, (name, p) ∈ Unicode.scriptEntries

/-- The letters of the scripts Han, Hangul and Tangut for which the Unicode data has no lines of
their own, only the first and the last of a range. -/
def unlistedLetters : List (Nat × Nat) :=
  [(0x3401, 0x4dbe), (0x4e01, 0x9ffe), (0xac01, 0xd7a2), (0x17001, 0x187fe), (0x18d01, 0x18d1d), (0x20001, 0x2a6de), (0x2a701, 0x2b73e),
   (0x2b741, 0x2b81c), (0x2b821, 0x2ceac), (0x2ceb1, 0x2ebdf), (0x2ebf1, 0x2ee5c), (0x30001, 0x31349), (0x31351, 0x323ae), (0x323b1, 0x33478)]

/-- The POSIX classes that wide characters get from properties: names, and the properties. -/
def posixProps : List (String × List String) :=
  [("alnum", ["Ll", "Lu", "Nd"]), ("alpha", ["Ll", "Lu"]), ("cntrl", ["Cc"]), ("digit", ["Nd"]), ("lower", ["Ll"]), ("upper", ["Lu"])]

/-- `[[:name:]]`. -/
def posixEscape (name : String) : List Nat := 91 :: 91 :: 58 :: chars name ++ [58, 93, 93]

/-- The names that stand for several categories. -/
def categoryGroups : List (String × List String) :=
  [("C", ["Cc", "Cf", "Co", "Cs"]), ("LC", ["Ll", "Lt", "Lu"]), ("L", ["Ll", "Lm", "Lo", "Lt", "Lu"]), ("M", ["Mc", "Me", "Mn"]), ("N", ["Nd", "Nl", "No"]), ("P", ["Pc", "Pd", "Pe", "Pf", "Pi", "Po", "Ps"]),
   ("S", ["Sc", "Sk", "Sm", "So"]), ("Z", ["Zl", "Zp", "Zs"])]

end Lexertl.Spec

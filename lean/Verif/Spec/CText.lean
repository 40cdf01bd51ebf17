import Verif.Model.GenText
import Verif.Spec.Reads

/-
C++ text as tokens, and the declarations of the tables of a generated lexer.
-/
namespace Lexertl.Spec

/-- A token of a C++ program: a name or keyword, an integer, or a punctuation character. -/
inductive CTok
  | word (w : List Nat)
  | num (n : Nat)
  | sign (c : Nat)
  deriving DecidableEq, Repr

/-- Letters, digits and `_`. -/
def wordChar (c : Nat) : Bool := (48 ≤ c && c ≤ 57) || (65 ≤ c && c ≤ 90) || (97 ≤ c && c ≤ 122) || c == 95

/-- The token made of letters, digits and `_`: hexadecimal after `0x`, decimal if it starts with another digit (the only one that
starts with 0 is `0` here). -/
def wordTok : List Nat → List CTok
  | [] => []
  | 48 :: 120 :: ds => [.num (hexVal ds)]
  | c :: w => if 48 ≤ c ∧ c ≤ 57 then [.num (decVal (c :: w))] else [.word (c :: w)]

/-- The tokens of a text; `w` is the beginning of a name or number already read. -/
def cTokens : List Nat → List Nat → List CTok
  | w, [] => wordTok w
  | w, c :: cs =>
    if wordChar c then cTokens (w ++ [c]) cs
    else wordTok w ++ (if c = 32 ∨ c = 10 then [] else [.sign c]) ++ cTokens [] cs

/-- A word given as a string. -/
def kw (s : String) : CTok := .word (chars s)

/-- A list with commas between its elements. -/
def commaSep : List (List CTok) → List CTok
  | [] => []
  | [a] => a
  | a :: b :: r => a ++ [.sign 44] ++ commaSep (b :: r)

/-- `{ ... }` -/
def braces (ts : List CTok) : List CTok := [.sign 123] ++ ts ++ [.sign 125]

/-- An element of a table: `n`, in a table of pointers `reinterpret_cast<const void*>(n)` unless it is 0; or `name + k`. -/
def elemToks (pointers : Bool) (name : List Nat) : GenCell → List CTok
  | .num n =>
    if pointers = true ∧ n ≠ 0 then
      [kw "reinterpret_cast", .sign 60, kw "const", kw "void", .sign 42, .sign 62, .sign 40, .num n, .sign 41]
    else [.num n]
  | .addr k => [.word name, .sign 43, .num k]

/-- `static const id_type lookup_[] = {...};`, or, for several lexer states, `static const id_type lookups_[][256] =
{{...}, ...};`. -/
def lookupDecl (ls : List (List Nat)) : List CTok :=
  [kw "static", kw "const", kw "id_type"] ++
  (if ls.length > 1 then
    [kw "lookups_", .sign 91, .sign 93, .sign 91, .num 256, .sign 93, .sign 61] ++
    braces (commaSep (ls.map fun l => braces (commaSep (l.map fun n => [.num n]))))
  else
    [kw "lookup_", .sign 91, .sign 93, .sign 61] ++ commaSep (ls.map fun l => braces (commaSep (l.map fun n => [.num n])))) ++
  [.sign 59]

/-- `static const id_type dfa_alphabet_ = ...;`, or `static const id_type dfa_alphabets_[n] = {...};`. -/
def alphabetDecl (as : List Nat) : List CTok :=
  [kw "static", kw "const", kw "id_type"] ++
  (if as.length > 1 then
    [kw "dfa_alphabets_", .sign 91, .num as.length, .sign 93, .sign 61] ++ braces (commaSep (as.map fun n => [.num n]))
  else [kw "dfa_alphabet_", .sign 61] ++ commaSep (as.map fun n => [.num n])) ++
  [.sign 59]

/-- The type of the elements of a table. -/
def elemType (pointers : Bool) : List CTok := if pointers then [kw "void", .sign 42] else [kw "id_type"]

/-- The name of table `i` of `n`, with `i` in the given base. -/
def tableName (base n i : Nat) : List Nat := chars "dfa" ++ (if n > 1 then numText base i else []) ++ chars "_"

/-- `static const TYPE name[] = {...};`, where the elements refer to the table by `used`. -/
def tableDecl (pointers : Bool) (name used : List Nat) (cells : List GenCell) : List CTok :=
  [kw "static", kw "const"] ++ elemType pointers ++ [.word name, .sign 91, .sign 93, .sign 61] ++
  braces (commaSep (cells.map (elemToks pointers used))) ++ [.sign 59]

/-- `static const TYPE* dfas_[] = {...};`, for several lexer states. -/
def tablesDecl (pointers : Bool) (names : List (List Nat)) : List CTok :=
  if names.length > 1 then
    [kw "static", kw "const"] ++ (if pointers then [kw "void", .sign 42, kw "const"] else [kw "id_type"]) ++
    [.sign 42, kw "dfas_", .sign 91, .sign 93, .sign 61] ++ braces (commaSep (names.map fun w => [.word w])) ++ [.sign 59]
  else []

end Lexertl.Spec

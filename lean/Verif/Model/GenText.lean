import Verif.Model.GenCpp
import Verif.Model.Debug

/-
Model of generate_cpp.hpp:670-941 `dump_tables`: the text of the generated tables.  The stream is the list of the characters
written to it; it is taken to write decimal numbers when `dump_tables` is called.
-/
namespace Lexertl

/-- generate_cpp.hpp:935-941 `output_tabs`. -/
def outputTabs (n : Nat) : List Nat := List.replicate (4 * n) 32

/-- Texts with `sep` between them. -/
def sepBy (sep : List Nat) : List (List Nat) → List Nat
  | [] => []
  | [a] => a
  | a :: b :: r => a ++ sep ++ sepBy sep (b :: r)

/-- `"0x" << std::hex << n`. -/
def hexText (n : Nat) : List Nat := chars "0x" ++ numText 16 n

/-- generate_cpp.hpp:704-732: the character table of one lexer state, in rows of eight.  Exactly 256 elements are read. -/
def lookupText (tabs : Nat) (l : List Nat) : M (List Nat) :=
  if l.length < 256 then .error (.ub "read outside the lookup table")
  else .ok ([123] ++
    sepBy (chars ",\n" ++ outputTabs (tabs + 1)) ((List.range 32).map fun r =>
      sepBy (chars ", ") ((List.range 8).map fun c => hexText (l.getD (r * 8 + c) 0))) ++ [125])

/-- generate_cpp.hpp:681-745: the character tables. -/
def lookupsText (tabs : Nat) (ls : List (List Nat)) : M (List Nat) := do
  let ts ← ls.mapM (lookupText tabs)
  .ok (outputTabs tabs ++ chars "static const id_type lookup" ++
    (if ls.length > 1 then chars "s_[][256" else chars "_[") ++ chars "] = \n" ++ outputTabs (tabs + 1) ++
    (if ls.length > 1 then [123] else []) ++ sepBy (chars ",\n" ++ outputTabs (tabs + 1)) ts ++
    (if ls.length > 1 then [125] else []) ++ chars ";\n")

/-- generate_cpp.hpp:746-774: the lengths of the rows, of which there are `n`.  From here on the stream writes hexadecimal
numbers. -/
def alphabetText (tabs n : Nat) (as : List Nat) : M (List Nat) :=
  if as.length < n ∨ as = [] then .error (.ub "read outside _dfa_alphabet")
  else .ok (outputTabs tabs ++ chars "static const id_type dfa_alphabet" ++
    (if n > 1 then chars "s_[" ++ numText 10 n ++ chars "] = {" else chars "_ = ") ++
    sepBy (chars ", ") ((as.take (max n 1)).map hexText) ++ (if n > 1 then [125] else []) ++ chars ";\n")

/-- generate_cpp.hpp:854-933 `dump_row`: the element `v` in column `col` of row `row`. -/
def cellText (pointers : Bool) (name : List Nat) (width row col v : Nat) : List Nat :=
  if pointers then
    if col = 0 then
      if row = 0 then name ++ chars " + " ++ hexText (v * width)
      else if v ≠ 0 then chars "reinterpret_cast<const void*>(" ++ hexText v ++ [41]
      else hexText v
    else if col < ixTransitions then
      if v ≠ 0 then chars "reinterpret_cast<const void*>(" ++ hexText v ++ [41] else hexText v
    else if v = 0 then [48]
    else name ++ chars " + " ++ hexText (v * width)
  else hexText v

/-- generate_cpp.hpp:776-824: the table of lexer state `i` of `n`.  Its name is that of the elements (`dfa_name_`, with a
stream of its own) in decimal, and hexadecimal where it is declared.  Rows without room for the fixed columns, which no machine
has, count as undefined behaviour. -/
def dfaText (pointers : Bool) (tabs n i width : Nat) (flat : List Nat) : M (List Nat) :=
  if width < ixTransitions then .error (.ub "rows too short")
  else if flat = [] then .error (.ub "front() of an empty table")
  else
    let name := chars "dfa" ++ (if n > 1 then numText 10 i else []) ++ [95]
    .ok (outputTabs tabs ++ chars "static const " ++ (if pointers then chars "void*" else chars "id_type") ++ chars " dfa" ++
      (if n > 1 then numText 16 i else []) ++ chars "_[] = {" ++
      sepBy (chars ",\n" ++ outputTabs (tabs + 1)) ((List.range (flat.length / width)).map fun r =>
        sepBy (chars ", ") ((List.range width).map fun c => cellText pointers name width r c (flat.getD (r * width + c) 0))) ++
      chars "};\n")

/-- generate_cpp.hpp:826-848: the list of the tables. -/
def dfasText (pointers : Bool) (tabs n : Nat) : List Nat :=
  if n > 1 then
    outputTabs tabs ++ chars "static const " ++ (if pointers then chars "void* const" else chars "id_type") ++
    chars "* dfas_[] = {" ++ sepBy (chars ", ") ((List.range n).map fun i => chars "dfa" ++ numText 16 i ++ [95]) ++ chars "};\n"
  else []

/-- generate_cpp.hpp:670-851 `dump_tables`. -/
def dumpTables (sm : Internals) (tabs : Nat) (pointers : Bool) : M (List Nat) := do
  let n := sm.lookup.length
  let l ← lookupsText tabs sm.lookup
  let a ← alphabetText tabs n sm.alphabet
  let ds ← (List.range n).mapM fun i => dfaText pointers tabs n i (sm.alphabet.getD i 0) (sm.dfa.getD i []).flatten
  .ok (l ++ a ++ ds.flatten ++ dfasText pointers tabs n)

end Lexertl

import Verif.Model.Calc

/-
examples/json/main.cpp: the JSON lexer.  Input and output are sequences of code points (the
UTF-8 iterators, which the example reads the file through and prints the tokens through, are
in Model/Utf.lean).
-/
namespace Lexertl.Json
open Calc (done)

/-- examples/json/main.cpp:32-79: the rules.  The ids are those of the `enum` (28-29); `skip()` is
`npos - 1`; the last argument of `push` is by default `npos` (rules.hpp:370-373). -/
def rules (E : TokEnv) (tr : Traits) : M RulesObj := do
  let o ← done ((RulesObj.new tr {}).insertMacro E (chars "STRING") (chars "[\"]([ -\\x10ffff]{-}[\"\\\\]|\\\\([\"\\\\/bfnrt]|u[0-9a-fA-F]{4}))*[\"]"))
  let o ← done (o.insertMacro E (chars "NUMBER") (chars "-?(0|[1-9]\\d*)([.]\\d+)?([eE][-+]?\\d+)?"))
  let o ← done (o.insertMacro E (chars "BOOL") (chars "true|false"))
  let o ← done (o.insertMacro E (chars "NULL") (chars "null"))
  let o ← done (o.pushState tr (chars "END"))
  let o ← done (o.pushState tr (chars "OBJECT"))
  let o ← done (o.pushState tr (chars "NAME"))
  let o ← done (o.pushState tr (chars "COLON"))
  let o ← done (o.pushState tr (chars "OB_VALUE"))
  let o ← done (o.pushState tr (chars "OB_COMMA"))
  let o ← done (o.pushState tr (chars "ARRAY"))
  let o ← done (o.pushState tr (chars "ARR_COMMA"))
  let o ← done (o.pushState tr (chars "ARR_VALUE"))
  let o ← done (o.pushNamed E tr (chars "INITIAL") (chars "[{]") (some 4) (chars ">OBJECT:END") tr.npos)
  let o ← done (o.pushNamed E tr (chars "INITIAL") (chars "[[]") (some 7) (chars ">ARRAY:END") tr.npos)
  let o ← done (o.pushNamed E tr (chars "OBJECT,OB_COMMA") (chars "[}]") (some 6) (chars "<") tr.npos)
  let o ← done (o.pushNamed E tr (chars "OBJECT,NAME") (chars "{STRING}") (some 5) (chars "COLON") tr.npos)
  let o ← done (o.pushNamed E tr (chars "COLON") (chars ":") (some (tr.npos - 1)) (chars "OB_VALUE") tr.npos)
  let o ← done (o.pushNamed E tr (chars "OB_VALUE") (chars "{STRING}") (some 1) (chars "OB_COMMA") tr.npos)
  let o ← done (o.pushNamed E tr (chars "OB_VALUE") (chars "{NUMBER}") (some 2) (chars "OB_COMMA") tr.npos)
  let o ← done (o.pushNamed E tr (chars "OB_VALUE") (chars "{BOOL}") (some 3) (chars "OB_COMMA") tr.npos)
  let o ← done (o.pushNamed E tr (chars "OB_VALUE") (chars "{NULL}") (some 9) (chars "OB_COMMA") tr.npos)
  let o ← done (o.pushNamed E tr (chars "OB_VALUE") (chars "[{]") (some 4) (chars ">OBJECT:OB_COMMA") tr.npos)
  let o ← done (o.pushNamed E tr (chars "OB_VALUE") (chars "[[]") (some 7) (chars ">ARRAY:OB_COMMA") tr.npos)
  let o ← done (o.pushNamed E tr (chars "OB_COMMA") (chars ",") (some (tr.npos - 1)) (chars "NAME") tr.npos)
  let o ← done (o.pushNamed E tr (chars "ARRAY,ARR_COMMA") (chars "\\]") (some 8) (chars "<") tr.npos)
  let o ← done (o.pushNamed E tr (chars "ARRAY,ARR_VALUE") (chars "{STRING}") (some 1) (chars "ARR_COMMA") tr.npos)
  let o ← done (o.pushNamed E tr (chars "ARRAY,ARR_VALUE") (chars "{NUMBER}") (some 2) (chars "ARR_COMMA") tr.npos)
  let o ← done (o.pushNamed E tr (chars "ARRAY,ARR_VALUE") (chars "{BOOL}") (some 3) (chars "ARR_COMMA") tr.npos)
  let o ← done (o.pushNamed E tr (chars "ARRAY,ARR_VALUE") (chars "{NULL}") (some 9) (chars "ARR_COMMA") tr.npos)
  let o ← done (o.pushNamed E tr (chars "ARRAY,ARR_VALUE") (chars "[{]") (some 4) (chars ">OBJECT:ARR_COMMA") tr.npos)
  let o ← done (o.pushNamed E tr (chars "ARRAY,ARR_VALUE") (chars "[[]") (some 7) (chars ">ARRAY:ARR_COMMA") tr.npos)
  let o ← done (o.pushNamed E tr (chars "ARR_COMMA") (chars ",") (some (tr.npos - 1)) (chars "ARR_VALUE") tr.npos)
  done (o.pushNamed E tr (chars "*") (chars "[ \t\r\n]+") (some (tr.npos - 1)) (chars ".") tr.npos)

/-- A line of output: id, token and lexer state. -/
structure Line where
  id : Nat
  token : List Nat
  state : Nat
  deriving DecidableEq, Repr

/-- examples/json/main.cpp:87-102: the line printed for a token: strings without the first and the
last character.  Iterators that pass each other are undefined behaviour. -/
def line (inp : List Nat) (r : Results) : M Line :=
  if r.id = 1 then
    if r.first + 1 ≤ r.second - 1 then .ok ⟨r.id, (inp.drop (r.first + 1)).take (r.second - 1 - (r.first + 1)), r.state⟩
    else .error (.ub "range of iterators")
  else if r.first ≤ r.second then .ok ⟨r.id, (inp.drop r.first).take (r.second - r.first), r.state⟩
  else .error (.ub "range of iterators")

/-- examples/json/main.cpp:81-107, from a call of `lookup` on: the lines printed and the size of the stack
printed at the end, or a fault.  `bytes`: bytes per character.  A relation, so that no bound on
the number of iterations is needed. -/
inductive Run (npos bytes : Nat) (sm : Internals) (inp : List Nat) : Results → M (List Line × Nat) → Prop
  | fault (r e) : Returns Calc.flags npos bytes sm inp r (.error e) → Run npos bytes sm inp r (.error e)
  | last (r r') : Returns Calc.flags npos bytes sm inp r (.ok r') → r'.id = 0 → Run npos bytes sm inp r (.ok ([], r'.stack.length))
  | stop (r r' e) : Returns Calc.flags npos bytes sm inp r (.ok r') → r'.id ≠ 0 → line inp r' = .error e → Run npos bytes sm inp r (.error e)
  | more (r r' l o) : Returns Calc.flags npos bytes sm inp r (.ok r') → r'.id ≠ 0 → line inp r' = .ok l → Run npos bytes sm inp r' o →
      Run npos bytes sm inp r (o.map fun x => (l :: x.1, x.2))

/-- examples/json/main.cpp:11-116 `main`, for a file with the code points `inp`. -/
def Main (E : TokEnv) (tr : Traits) (addr : Nat → Nat) (inp : List Nat) (o : M (List Line × Nat)) : Prop :=
  ∃ obj sm, rules E tr = .ok obj ∧ buildTemp tr addr obj.rules = .ok sm ∧
    Run tr.npos (if tr.compressed then (if tr.char24 then 3 else 2) else 1) sm inp (.mk' tr.npos 0 inp.length) o

end Lexertl.Json

import Verif.Model.Calc

/-
examples/ocaml/main.cpp: the lexer for OCaml.  The text that is read is a parameter (in the
example it is a literal, lines 16-19).
-/
namespace Lexertl.Ocaml
open Calc (done)

/-- examples/ocaml/main.cpp:22-43: the rules.  The ids are those of the `enum` (9-11); rules pushed without
id continue the token; `skip()` is `npos - 1`; the last argument of `push` is by default `npos`
(rules.hpp:370-373). -/
def rules (E : TokEnv) (tr : Traits) : M RulesObj := do
  let o ← done ((RulesObj.new tr {}).pushState tr (chars "COMMENT"))
  let o ← done (o.insertMacro E (chars "ESCAPE_SEQUENCE") (chars "([\\\"'ntbr]|[0-9]{3}|x[0-9A-Fa-f]{2})"))
  let o ← done (o.insertMacro E (chars "OPERATOR_CHAR") (chars "[-!$%&*+./:<=>?@^|~]"))
  let o ← done (o.pushInitial E tr (chars "[A-Za-z_][A-Za-z_0-9']*") 1 tr.npos)
  let o ← done (o.pushInitial E tr (chars "-?([0-9][0-9+]*|0([xX][0-9A-Fa-f][0-9A-Fa-f_]*|[oO][0-7][0-7_]*|[bB][01][01_]*))") 2 tr.npos)
  let o ← done (o.pushInitial E tr (chars "-?[0-9][0-9_]*(\\.[0-9-])?([eE][-+]?[0-9][0-9_]*)?") 3 tr.npos)
  let o ← done (o.pushInitial E tr (chars "'[^\\']|{ESCAPE_SEQUENCE}'") 4 tr.npos)
  let o ← done (o.pushInitial E tr (chars "\"([^\\\"]|{ESCAPE_SEQUENCE})*\"") 5 tr.npos)
  let o ← done (o.pushInitial E tr (chars "[-=<>@^|&+*/$%]{OPERATOR_CHAR}*") 8 tr.npos)
  let o ← done (o.pushInitial E tr (chars "[!?~]{OPERATOR_CHAR}*") 9 tr.npos)
  let o ← done (o.pushInitial E tr (chars "{OPERATOR_CHAR}") 10 tr.npos)
  let o ← done (o.pushInitial E tr (chars "#\\d+(\"([^\\\"]|{ESCAPE_SEQUENCE})*\")?") 11 tr.npos)
  let o ← done (o.pushNamed E tr (chars "INITIAL,COMMENT") (chars "\\(\\*") none (chars ">COMMENT") tr.npos)
  let o ← done (o.pushNamed E tr (chars "COMMENT") (chars "\\*\\)") (some 12) (chars "<") tr.npos)
  let o ← done (o.pushNamed E tr (chars "COMMENT") (chars "[^(*]+|\\(|\\*") none (chars "COMMENT") tr.npos)
  done (o.pushInitial E tr (chars "[ \t\n]+") (tr.npos - 1) tr.npos)

/-- examples/ocaml/main.cpp:12-15: the names of the tokens. -/
def names : List (List Nat) :=
  [chars "EOF", chars "Identifier", chars "Integer", chars "Float", chars "Char", chars "String", chars "Label",
   chars "Optional Label", chars "Infix Symbol", chars "Prefix Symbol", chars "Operator Char",
   chars "Line Number Directive", chars "Comment"]

/-- A line of output: the name of the token and its text. -/
abbrev Line := List Nat × List Nat

/-- examples/ocaml/main.cpp:49-60: the line printed for a token.  Reading past the end of the array and
iterators that pass each other are undefined behaviour. -/
def line (npos : Nat) (inp : List Nat) (r : Results) : M Line :=
  if r.first ≤ r.second then
    let text := (inp.drop r.first).take (r.second - r.first)
    if r.id ≠ npos then
      match names[r.id]? with
      | some n => .ok (n, text)
      | none => .error (.ub "index out of bounds")
    else .ok (chars "Unknown token", text)
  else .error (.ub "range of iterators")

/-- examples/ocaml/main.cpp:46-61: the loop, from a call of `lookup` on: the lines printed, or a fault.  A
relation, so that no bound on the number of iterations is needed. -/
inductive Run (npos bytes : Nat) (sm : Internals) (inp : List Nat) : Results → M (List Line) → Prop
  | fault (r e) : Returns Calc.flags npos bytes sm inp r (.error e) → Run npos bytes sm inp r (.error e)
  | stop (r r' e) : Returns Calc.flags npos bytes sm inp r (.ok r') → line npos inp r' = .error e →
      Run npos bytes sm inp r (.error e)
  | last (r r' l) : Returns Calc.flags npos bytes sm inp r (.ok r') → line npos inp r' = .ok l → r'.id = 0 →
      Run npos bytes sm inp r (.ok [l])
  | more (r r' l o) : Returns Calc.flags npos bytes sm inp r (.ok r') → line npos inp r' = .ok l → r'.id ≠ 0 →
      Run npos bytes sm inp r' o → Run npos bytes sm inp r (o.map fun ls => l :: ls)

/-- examples/ocaml/main.cpp:5-65 `main`, for the text `inp`. -/
def Main (E : TokEnv) (tr : Traits) (addr : Nat → Nat) (inp : List Nat) (o : M (List Line)) : Prop :=
  ∃ obj sm, rules E tr = .ok obj ∧ buildTemp tr addr obj.rules = .ok sm ∧
    Run tr.npos (if tr.compressed then (if tr.char24 then 3 else 2) else 1) sm inp (.mk' tr.npos 0 inp.length) o

end Lexertl.Ocaml

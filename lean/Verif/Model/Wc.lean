import Verif.Model.Rules
import Verif.Model.Lookup
import Verif.Model.Generator

/-
examples/wc/main.cpp: the program that counts lines, words and characters.
-/
namespace Lexertl.Wc

/-- A call on the rules object: it throws, or the object has changed. -/
def done (x : RulesObj × M Unit) : M RulesObj := do
  x.2
  .ok x.1

/-- examples/wc/main.cpp:9-17.  The third argument of `push` is by default `npos`
(rules.hpp:274-277). -/
def rules (E : TokEnv) (tr : Traits) : M RulesObj := do
  let o ← done ((RulesObj.new tr {}).insertMacro E (chars "ws") (chars "[ \t]"))
  let o ← done (o.insertMacro E (chars "nonws") (chars "[^ \t\n]"))
  let o ← done (o.pushInitial E tr (chars "{nonws}+") 1 tr.npos)
  let o ← done (o.pushInitial E tr (chars "{ws}+") 2 tr.npos)
  done (o.pushInitial E tr (chars "\r|\n|\r\n") 3 tr.npos)

/-- examples/wc/main.cpp:26: `int` counters. -/
structure Counts where
  cc : Int
  wc : Int
  lc : Int
  deriving DecidableEq, Repr

/-- `++` on an `int` of 32 bits. -/
def incr (n : Int) : M Int :=
  if n = 2 ^ 31 - 1 then .error (.ub "overflow of an int") else .ok (n + 1)

/-- `cc += results_.second - results_.first`: computed with 64 bits, then converted to an
`int` of 32 bits. -/
def addLength (n : Int) (r : Results) : Int := Int.bmod (n + (r.second - r.first : Int)) (2 ^ 32)

/-- examples/wc/main.cpp:32-50: the `switch`. -/
def count (r : Results) (k : Counts) : M Counts := do
  if r.id = 0 then .ok k
  else if r.id = 1 then .ok { k with cc := addLength k.cc r, wc := ← incr k.wc }
  else if r.id = 2 then .ok { k with cc := addLength k.cc r }
  else if r.id = 3 then .ok { k with cc := addLength k.cc r, lc := ← incr k.lc }
  else .error (.throw "assert(0)")

/-- `lexertl::cmatch` (match_results.hpp:22-25, 169): all features except the recursive one. -/
def flags : Flags := { bol := true, eol := true, multiState := true, recursive := false, advance := true }

/-- examples/wc/main.cpp:28-51: the loop.  `n`: a bound on the number of iterations.  The
state machine is one for single byte characters. -/
def loop (tr : Traits) (sm : Internals) (inp : List Nat) : Nat → Results → Counts → M Counts
  | 0, _, _ => .error .fuel
  | n + 1, r, k => do
    let r ← lookup flags tr.npos 1 sm inp r
    let k ← count r k
    if r.id ≠ 0 then loop tr sm inp n r k else .ok k

/-- examples/wc/main.cpp:7-56 `main`, for a file with the bytes `inp`: the three numbers that
are printed.  Opening the file is the subject of `Model/MemoryFile.lean`; an unreadable file
is one without bytes. -/
def main (E : TokEnv) (tr : Traits) (addr : Nat → Nat) (inp : List Nat) : M Counts := do
  let o ← rules E tr
  let sm ← buildTemp tr addr o.rules
  loop tr sm inp (inp.length + 1) (Results.mk' tr.npos 0 inp.length) ⟨0, 0, 0⟩

end Lexertl.Wc

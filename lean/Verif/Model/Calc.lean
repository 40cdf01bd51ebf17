import Verif.Model.Rules
import Verif.Model.Lookup
import Verif.Model.Generator

/-
examples/calc/main.cpp: the calculator.  `int` has 32 bits.  Characters are numbers: `+` is
43, `-` 45, `*` 42, `/` 47, `%` 37, `(` 40, `)` 41, `~` 126.
-/
namespace Lexertl.Calc

/-- A call on the rules object: it throws, or the object has changed. -/
def done {α : Type} (x : RulesObj × M α) : M RulesObj := do
  let _ ← x.2
  .ok x.1

/-- examples/calc/main.cpp:8-37 `gen_calc`, up to the call of the generator.  The last argument
of `push` is by default `npos` (rules.hpp:370-373); `skip()` is `npos - 1`. -/
def rules (E : TokEnv) (tr : Traits) : M RulesObj := do
  let o ← done ((RulesObj.new tr {}).pushState tr (chars "VALUE"))
  let o ← done (o.pushState tr (chars "OPERATOR"))
  let o ← done (o.pushState tr (chars "SUB_INITIAL"))
  let o ← done (o.pushState tr (chars "SUB_VALUE"))
  let o ← done (o.pushState tr (chars "SUB_OPERATOR"))
  let o ← done (o.pushNamed E tr (chars "INITIAL") (chars "-") (some 1) (chars "VALUE") 100)
  let o ← done (o.pushNamed E tr (chars "INITIAL,VALUE") (chars "\\d+") (some 2) (chars "OPERATOR") 101)
  let o ← done (o.pushNamed E tr (chars "OPERATOR") (chars "[-+*/%]") (some 3) (chars "INITIAL") 102)
  let o ← done (o.pushNamed E tr (chars "INITIAL,VALUE") (chars "\\(") (some 4) (chars ">SUB_INITIAL:OPERATOR") tr.npos)
  let o ← done (o.pushNamed E tr (chars "SUB_INITIAL,SUB_VALUE") (chars "\\(") (some 4) (chars ">SUB_INITIAL:SUB_OPERATOR") 103)
  let o ← done (o.pushNamed E tr (chars "SUB_INITIAL") (chars "-") (some 1) (chars "SUB_VALUE") 104)
  let o ← done (o.pushNamed E tr (chars "SUB_INITIAL,SUB_VALUE") (chars "\\d+") (some 2) (chars "SUB_OPERATOR") 105)
  let o ← done (o.pushNamed E tr (chars "SUB_OPERATOR") (chars "[-+*/%]") (some 3) (chars "SUB_INITIAL") 106)
  let o ← done (o.pushNamed E tr (chars "SUB_OPERATOR") (chars "\\)") (some 5) (chars "<") 107)
  done (o.pushNamed E tr (chars "*") (chars "\\s+") (some (tr.npos - 1)) (chars ".") 108)

/-- The two stacks of `calc`, top first. -/
structure Stacks where
  operands : List Int
  ops : List Nat
  deriving DecidableEq, Repr

/-- The result of an operation on `int`s. -/
def int32 (x : Int) : M Int := if -2 ^ 31 ≤ x ∧ x < 2 ^ 31 then .ok x else .error (.ub "int arithmetic")

/-- `lhs op= rhs` on `int`s: `/` and `%` truncate towards zero.  The quotient must be an `int`
for `%` too. -/
def apply (op : Nat) (lhs rhs : Int) : M Int :=
  if op = 43 then int32 (lhs + rhs)
  else if op = 45 then int32 (lhs - rhs)
  else if op = 42 then int32 (lhs * rhs)
  else if rhs = 0 then .error (.ub "int arithmetic")
  else if op = 47 then int32 (lhs.tdiv rhs)
  else do
    let _ ← int32 (lhs.tdiv rhs)
    .ok (lhs.tmod rhs)

/-- examples/calc/main.cpp:85-96: the loop of the case `)`.  `red`: the recursive call; `n`: a bound on
the number of iterations; `op`: the variable `op_`. -/
def closeLoop (red : Stacks → M Stacks) : Nat → Nat → Stacks → M (Nat × Stacks)
  | 0, _, _ => .error .fuel
  | n + 1, op, s =>
    match s.ops with
    | [] => .ok (op, s)
    | top :: _ => if op = 40 then .ok (op, s) else do closeLoop red n top (← red s)

/-- examples/calc/main.cpp:39-98 `reduce`, with a bound on the depth of the recursion. -/
def reduceFuel : Nat → Stacks → M Stacks
  | 0, _ => .error .fuel
  | n + 1, s =>
    match s.operands, s.ops with
    | [], _ => .ok s
    | _, [] => .ok s
    | x :: xs, op :: ops =>
      if op = 126 then do .ok ⟨(← int32 (-x)) :: xs, ops⟩
      else if op = 43 ∨ op = 45 ∨ op = 42 ∨ op = 47 ∨ op = 37 then
        match xs with
        | [] => .error (.ub "top of an empty stack")
        | y :: ys => do .ok ⟨(← apply op y x) :: ys, ops⟩
      else if op = 41 then do
        let r ← closeLoop (reduceFuel n) (ops.length + 1) 41 ⟨x :: xs, ops⟩
        if r.1 = 40 then
          match r.2.ops with
          | [] => .error (.ub "pop of an empty stack")
          | _ :: ops => .ok ⟨r.2.operands, ops⟩
        else .ok r.2
      else .ok s

/-- examples/calc/main.cpp:39-98 `reduce`. -/
def reduce (s : Stacks) : M Stacks := reduceFuel (s.ops.length + 1) s

/-- `isspace` in the "C" locale. -/
def isSpace (c : Nat) : Bool := c == 32 || (9 ≤ c && c ≤ 13)

def isDigit (c : Nat) : Bool := 48 ≤ c && c ≤ 57

/-- `atoi` on a null terminated string with the characters `l` before the terminator: a value
that is not an `int` is undefined behaviour. -/
def atoi (l : List Nat) : M Int :=
  let l := l.dropWhile isSpace
  let neg := l.head? == some 45
  let l := if l.head? == some 45 ∨ l.head? == some 43 then l.tail else l
  let n : Int := (l.takeWhile isDigit).foldl (fun n d => n * 10 + (d - 48 : Nat)) (0 : Nat)
  int32 (if neg then -n else n)

/-- examples/calc/main.cpp:114-174: what is done with a token. -/
def step (npos : Nat) (inp : List Nat) (r : Results) (s : Stacks) : M Stacks :=
  if r.id = npos then .error (.throw "Syntax error")
  else if r.id = 3 then
    match inp[r.first]? with
    | none => .error (.ub "character outside the input")
    | some c => do
      let s ←
        if c = 126 ∨ c = 40 then .ok s
        else if c = 43 ∨ c = 45 then reduce s
        else match s.ops with
          | [] => .ok s
          | op :: _ => if op ≠ 126 ∧ op ≠ 43 ∧ op ≠ 45 ∧ op ≠ 40 then reduce s else .ok s
      .ok ⟨s.operands, c :: s.ops⟩
  else if r.id = 1 then .ok ⟨s.operands, 126 :: s.ops⟩
  else if r.id = 2 then do .ok ⟨(← atoi (inp.drop r.first)) :: s.operands, s.ops⟩
  else if r.id = 4 then .ok ⟨s.operands, 40 :: s.ops⟩
  else if r.id = 5 then reduce ⟨s.operands, 41 :: s.ops⟩
  else .ok s

/-- `lexertl::recursive_match_results` (match_results.hpp:128-135): all features. -/
def flags : Flags := { bol := true, eol := true, multiState := true, recursive := true, advance := true }

/-- examples/calc/main.cpp:109-175: the loop.  `Loop r s o`: with the results object `r` and the
stacks `s`, it ends with outcome `o`: the lexer state and the stacks at the end, or a fault.
A relation, so that no bound on the number of iterations is needed. -/
inductive Loop (npos : Nat) (sm : Internals) (inp : List Nat) : Results → Stacks → M (Nat × Stacks) → Prop
  | fault (r s e) : Returns flags npos 1 sm inp r (.error e) → Loop npos sm inp r s (.error e)
  | stop (r s r' e) : Returns flags npos 1 sm inp r (.ok r') → step npos inp r' s = .error e → Loop npos sm inp r s (.error e)
  | more (r s r' s' o) : Returns flags npos 1 sm inp r (.ok r') → step npos inp r' s = .ok s' → r'.id ≠ 0 →
      Loop npos sm inp r' s' o → Loop npos sm inp r s o
  | last (r s r' s') : Returns flags npos 1 sm inp r (.ok r') → step npos inp r' s = .ok s' → r'.id = 0 →
      Loop npos sm inp r s (.ok (r'.state, s'))

/-- examples/calc/main.cpp:182-185: the second loop, with a bound on the number of iterations. -/
def drain : Nat → Stacks → M Stacks
  | 0, _ => .error .fuel
  | n + 1, s => if s.ops = [] then .ok s else do drain n (← reduce s)

/-- examples/calc/main.cpp:177-192: after the loop. -/
def finish (x : Nat × Stacks) : M Int := do
  if x.1 ≠ 2 then .error (.throw "Unterminated expression!")
  else
    let s ← drain (x.2.ops.length + 1) x.2
    match s.operands with
    | [v] => .ok v
    | _ => .error (.throw "internal error: operands_.size() != 1")

/-- examples/calc/main.cpp:100-193 `calc` ends with outcome `o`: the value, or a fault. -/
def Calc (npos : Nat) (sm : Internals) (inp : List Nat) (o : M Int) : Prop :=
  ∃ x, Loop npos sm inp (.mk' npos 0 inp.length) ⟨[], []⟩ x ∧ o = x.bind finish

/-- `gen_calc`, then `calc`, for a text `inp`. -/
def Main (E : TokEnv) (tr : Traits) (addr : Nat → Nat) (inp : List Nat) (o : M Int) : Prop :=
  ∃ obj sm, rules E tr = .ok obj ∧ buildTemp tr addr obj.rules = .ok sm ∧ Calc tr.npos sm inp o

end Lexertl.Calc

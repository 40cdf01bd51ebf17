import Verif.Model.Lookup

/-
Model of `generate_cpp.hpp`: the tables that `table_based_cpp::generate` writes and the
function it writes to go with them.

The text of the function is not modelled: what is modelled is what the function does, as
a Lean function whose parts are there or not as `generate` writes them or not.  The
multiplication `state_ * dfa_alphabet_` is taken not to overflow.
-/
namespace Lexertl

/-- The features `generate` looks at (generate_cpp.hpp:37, 64, 73, 87, 218).  `multi` stands
for the test `internals_._dfa.size() > 1` (94, 208, 406, 558, 610). -/
structure GenFeatures where
  bol : Bool
  eol : Bool
  skip : Bool
  again : Bool
  recursive : Bool
  multi : Bool
  deriving DecidableEq, Repr

def genFeatures (sm : Internals) : GenFeatures :=
  { bol := hasBit sm.features 1, eol := hasBit sm.features 2, skip := hasBit sm.features 4,
    again := hasBit sm.features 8, recursive := hasBit sm.features 32,
    multi := decide (sm.dfa.length > 1) }

/-- An element of a generated table: a number (`0x7`, or, in a table of pointers,
`reinterpret_cast<const void*>(0x7)`), or the address of an element of the table
(`dfa_ + 0x7`). -/
inductive GenCell
  | num (n : Nat)
  | addr (offset : Nat)
  deriving DecidableEq, Repr

/-- generate_cpp.hpp:853-933 `dump_row`: the element in column `col` of row `row` of a
table with rows of length `width`, where the state machine has `n`. -/
def genCell (pointers : Bool) (width row col n : Nat) : GenCell :=
  if pointers then
    if col = 0 then if row = 0 then .addr (n * width) else .num n
    else if col < ixTransitions then .num n
    else if n = 0 then .num 0
    else .addr (n * width)
  else .num n

/-- One generated table, with its character table. -/
structure GenDfa where
  lookup : List Nat
  width : Nat
  cells : List GenCell
  deriving DecidableEq, Repr

/-- What `generate` writes. -/
structure GenCode where
  eoi : Nat
  pointers : Bool
  feat : GenFeatures
  dfas : List GenDfa
  deriving DecidableEq, Repr

/-- generate_cpp.hpp:776-824: the rows of a table, one after the other. -/
def genTable (pointers : Bool) (width : Nat) (flat : List Nat) : List GenCell :=
  (flat.take (flat.length / width * width)).mapIdx fun i n => genCell pointers width (i / width) (i % width) n

/-- generate_cpp.hpp:670-851 `dump_tables`. -/
def genTables (sm : Internals) (pointers : Bool) : List GenDfa :=
  (List.range sm.lookup.length).map fun i =>
    ⟨sm.lookup.getD i [], sm.alphabet.getD i 0, genTable pointers (sm.alphabet.getD i 0) (sm.dfa.getD i []).flatten⟩

/-- generate_cpp.hpp:23-668 `generate`. -/
def generate (sm : Internals) (pointers : Bool) : GenCode :=
  ⟨sm.eoi, pointers, genFeatures sm, genTables sm pointers⟩

/-- What is written is a C++ program: `start_state_` is used if there is recursion (598) and
declared if there is more than one table (208-211); with pointers, the table of lexer state
`i` is named with `i` in decimal in its elements (799-804) and with `i` in hexadecimal where it
is declared (805; the stream is still in the mode set at 765). -/
def GenCode.compiles (g : GenCode) : Bool :=
  (!g.feat.recursive || g.feat.multi) && (!g.pointers || decide (g.dfas.length ≤ 10))

namespace GenCode

/-- The values of `ptr_[0]`, `id_`, ... : a number read from a table. -/
def toNum : GenCell → M Nat
  | .num n => .ok n
  | .addr _ => .error (.ub "an address taken for a number")

/-- Conversion of an element to `bool`; addresses of array elements are not null. -/
def isSet : GenCell → Bool
  | .num n => n != 0
  | .addr _ => true

/-- `ptr_[i]`, with `ptr_` as an offset. -/
def cellAt (d : GenDfa) (i : Nat) : M GenCell :=
  match d.cells[i]? with
  | some c => .ok c
  | none => .error (.ub "read outside the generated table")

/-- generate_cpp.hpp:256-263, 293-300, 461-468, 1020-1027, 1108-1115: the row an element
leads to. -/
def jump (g : GenCode) (d : GenDfa) (c : GenCell) : M Nat :=
  match g.pointers, c with
  | false, .num n => .ok (n * d.width)
  | true, .addr k => .ok k
  | _, _ => .error (.ub "a number used as an address")

/-- generate_cpp.hpp:321-432, 471-585: what is done at an end state.  The variables of the
function are kept in an `LuState`, `ptr` being an offset. -/
def endStep (g : GenCode) (d : GenDfa) (s : LuState) (endTok curr : Nat) : M (LuState × Nat) := do
  let e ← cellAt d s.ptr
  if isSet e then
    let pop ← if g.feat.recursive then toNum e else .ok 0
    let id ← toNum (← cellAt d (s.ptr + ixId))
    let uid ← toNum (← cellAt d (s.ptr + ixUserId))
    let push ← if g.feat.recursive then cellAt d (s.ptr + ixPushDfa) >>= toNum else .ok s.pushDfa
    let next ← if g.feat.multi then cellAt d (s.ptr + ixNextDfa) >>= toNum else .ok s.startState
    .ok ({ s with
      endState := true
      endBol := if g.feat.bol then s.bol else s.endBol
      id := id, uid := uid
      pop := if g.feat.recursive then hasBit pop bitPop else s.pop
      pushDfa := push
      startState := next }, curr)
  else .ok (s, endTok)

/-- generate_cpp.hpp:1055-1119: the loop over the bytes of a wide character; the second
component tells whether all of them were taken. -/
def stepBytes (g : GenCode) (d : GenDfa) (ptr : Nat) : List Nat → M (Nat × Bool)
  | [] => .ok (ptr, true)
  | b :: bs =>
    match d.lookup[b]? with
    | none => .error (.ub "lookup index out of range")
    | some col => do
      let state ← cellAt d (ptr + col)
      if isSet state then stepBytes g d (← jump g d state) bs
      else .ok (ptr, false)

/-- generate_cpp.hpp:943-1120 `output_char_loop`.  For single byte characters the loop is
that over one byte. -/
def nextChar (g : GenCode) (bytes : Nat) (d : GenDfa) (s : LuState) (c : Nat) : M (LuState × Bool) := do
  let bs := if bytes = 1 then [c] else (List.range bytes).map fun i => c / 256 ^ (bytes - 1 - i) % 256
  let (ptr, ok) ← stepBytes g d s.ptr bs
  .ok ({ s with ptr := ptr }, ok)

/-- generate_cpp.hpp:269-433: the scanning loop.  `curr_` has moved behind the character
when there is no transition for it (949, 1046). -/
def scan (g : GenCode) (bytes : Nat) (d : GenDfa) (inp : List Nat) (eoi : Nat) :
    Nat → LuState → Nat → Nat → M (LuState × Nat × Nat)
  | 0, _, _, _ => .error .fuel
  | fuel + 1, s, curr, endTok =>
    if curr = eoi then .ok (s, curr, endTok)
    else do
      let c ← charAt inp eoi curr
      let eol ← if g.feat.eol then cellAt d (s.ptr + ixEol) else .ok (.num 0)
      if isSet eol && c == 10 then
        let (s, endTok) ← g.endStep d { s with ptr := ← g.jump d eol } endTok curr
        scan g bytes d inp eoi fuel s curr endTok
      else
        let (s, ok) ← g.nextChar bytes d s c
        let s := if g.feat.bol then { s with bol := c == 10 } else s
        if ok then
          let (s, endTok) ← g.endStep d s endTok (curr + 1)
          scan g bytes d inp eoi fuel s (curr + 1) endTok
        else .ok (s, curr + 1, endTok)

/-- generate_cpp.hpp:437-588: the test for `$` after the loop. -/
def checkEol (g : GenCode) (d : GenDfa) (s : LuState) (endTok curr eoi : Nat) : M (LuState × Nat) := do
  if g.feat.eol ∧ curr = eoi then
    let c ← cellAt d (s.ptr + ixEol)
    if isSet c then g.endStep d { s with ptr := ← g.jump d c } endTok curr
    else .ok (s, endTok)
  else .ok (s, endTok)

/-- generate_cpp.hpp:125-232: the variables at the beginning. -/
def init (g : GenCode) (d : GenDfa) (bol : Bool) (state : Nat) : M LuState := do
  let e ← cellAt d d.width
  .ok { ptr := d.width, endState := isSet e
        pop := hasBit (← if g.feat.recursive then toNum e else .ok 0) bitPop
        id := ← toNum (← cellAt d (d.width + ixId))
        uid := ← toNum (← cellAt d (d.width + ixUserId))
        pushDfa := ← if g.feat.recursive then cellAt d (d.width + ixPushDfa) >>= toNum else .ok 0
        bol := bol, endBol := bol, eolState := 0, startState := state }

/-- generate_cpp.hpp:236-267: the start state at the beginning of a line. -/
def bolStart (g : GenCode) (d : GenDfa) (s : LuState) : M LuState := do
  if g.feat.bol ∧ s.bol then
    let c ← cellAt d 0
    if isSet c then .ok { s with ptr := ← g.jump d c } else .ok s
  else .ok s

/-- generate_cpp.hpp:94-112: the table in use. -/
def dfaAt (g : GenCode) (state : Nat) : M GenDfa :=
  match g.dfas[if g.feat.multi then state else 0]? with
  | some d => .ok d
  | none => .error (.ub "lexer state out of range")

/-- generate_cpp.hpp:87-588: one match attempt. -/
def attempt (g : GenCode) (bytes : Nat) (inp : List Nat) (fuel : Nat) (r : Results) (curr endTok : Nat) :
    M (LuState × Nat) := do
  let d ← g.dfaAt r.state
  let s ← g.init d r.bol r.state
  let s ← g.bolStart d s
  let (s, curr, endTok) ← g.scan bytes d inp r.eoi fuel s curr endTok
  g.checkEol d s endTok curr r.eoi

/-- generate_cpp.hpp:594-608: the stack of lexer states; `top()` and `pop()` of an empty stack
are undefined. -/
def popStep (g : GenCode) (npos : Nat) (s : LuState) (stack : List (Nat × Nat)) :
    M (LuState × List (Nat × Nat)) :=
  if g.feat.recursive then
    if s.pop then
      match stack with
      | [] => .error (.ub "top() of an empty stack")
      | e :: stack => .ok ({ s with startState := e.1 }, stack)
    else if s.pushDfa ≠ npos then .ok (s, (s.pushDfa, s.id) :: stack)
    else .ok (s, stack)
  else .ok (s, stack)

/-- generate_cpp.hpp:628-647: the test for `goto again`. -/
def isAgain (g : GenCode) (s : LuState) (stack : List (Nat × Nat)) : Bool :=
  g.feat.again && (s.id == g.eoi ||
    (g.feat.recursive && s.pop && (match stack with | e :: _ => e.2 == g.eoi | [] => false)))

/-- generate_cpp.hpp:73-667: the generated function from the label `again` on; `fuel` counts
the jumps to `skip` and `again`, `scanFuel` bounds the scanning loop. -/
def nextLoop (g : GenCode) (npos bytes : Nat) (inp : List Nat) (scanFuel : Nat) :
    Nat → Results → Nat → Nat → M Results
  | 0, _, _, _ => .error .fuel
  | fuel + 1, r, curr, endTok =>
    if curr = r.eoi then .ok { r with id := g.eoi, userId := npos }
    else do
      let (s, endTok) ← g.attempt bytes inp scanFuel r curr endTok
      if s.endState then
        let (s, stack) ← g.popStep npos s r.stack
        let r := { r with
          stack := stack
          state := if g.feat.multi then s.startState else r.state
          bol := if g.feat.bol then s.endBol else r.bol
          second := endTok }
        if g.feat.skip && s.id == npos - 1 then
          nextLoop g npos bytes inp scanFuel fuel { r with first := r.second } r.second endTok
        else if g.isAgain s stack then
          nextLoop g npos bytes inp scanFuel fuel r endTok endTok
        else .ok { r with id := s.id, userId := s.uid }
      else
        let c ← charAt inp r.eoi endTok
        .ok { r with
          first := endTok
          second := endTok + 1
          bol := if g.feat.bol then c == 10 else r.bol
          id := npos, userId := npos }

/-- generate_cpp.hpp:61-71: a call of the generated function, with bounds on the numbers of
jumps. -/
def callFuel (g : GenCode) (npos bytes : Nat) (inp : List Nat) (scanFuel fuel : Nat) (r : Results) : M Results :=
  g.nextLoop npos bytes inp scanFuel fuel { r with first := r.second } r.second r.second

/-- A call of the generated function returns, or is undefined, with the outcome `o`. -/
def Returns (g : GenCode) (npos bytes : Nat) (inp : List Nat) (r : Results) (o : M Results) : Prop :=
  o ≠ .error .fuel ∧ ∃ scanFuel fuel, g.callFuel npos bytes inp scanFuel fuel r = o

end GenCode

end Lexertl

import Verif.Model.Generator

/-
Model of `lookup.hpp`, `match_results.hpp` and `iterator.hpp`.

The input is the list of its character codes; iterators are positions in it.
-/
namespace Lexertl

/-- The `feature_bit` template parameter `flags` of `match_results` as far as
`lookup.hpp` tests it. -/
structure Flags where
  bol : Bool
  eol : Bool
  multiState : Bool
  recursive : Bool
  advance : Bool
  deriving DecidableEq, Repr

/-- match_results.hpp:35-41 and, for `recursive_match_results`, 138 (`stack`, top
first). -/
structure Results where
  id : Nat
  userId : Nat
  first : Nat
  second : Nat
  eoi : Nat
  bol : Bool
  state : Nat
  stack : List (Nat × Nat)
  deriving DecidableEq, Repr

/-- match_results.hpp:45-53, 145-149 constructor. -/
def Results.mk' (npos start eoi : Nat) (bol : Bool := true) (state : Nat := 0) : Results :=
  ⟨0, npos, start, start, eoi, bol, state, []⟩

/-- match_results.hpp:81-89, 153-158 `clear`. -/
def Results.clear (npos : Nat) (r : Results) : Results :=
  { r with id := 0, userId := npos, first := r.eoi, second := r.eoi, bol := true, state := 0,
           stack := [] }

/-- match_results.hpp:91-100, 160-165 `reset`. -/
def Results.reset (npos : Nat) (r : Results) (start eoi : Nat) : Results :=
  { r with id := 0, userId := npos, first := start, second := start, eoi := eoi, bol := true,
           state := 0, stack := [] }

/-- lookup.hpp:96-110 `lookup_state` with the structures at 22-92; `ptr` is the
number of the row `_ptr` points to. -/
structure LuState where
  ptr : Nat
  endState : Bool
  id : Nat
  uid : Nat
  bol : Bool
  endBol : Bool
  eolState : Nat
  startState : Nat
  pop : Bool
  pushDfa : Nat
  deriving DecidableEq, Repr

/-- One DFA of a state machine with its character table. -/
structure Dfa where
  lookup : List Nat
  rows : List Row
  deriving DecidableEq, Repr

/-- `internals_._lookup[state_]`, `internals_._dfa[state_]` (unchecked accesses). -/
def Internals.dfaAt (sm : Internals) (state : Nat) : M Dfa :=
  match sm.lookup[state]?, sm.dfa[state]? with
  | some l, some d => .ok ⟨l, d⟩
  | _, _ => .error (.ub "lexer state out of range")

/-- `*curr_`. -/
def charAt (inp : List Nat) (eoi pos : Nat) : M Nat :=
  if pos < eoi then
    match inp[pos]? with
    | some c => .ok c
    | none => .error (.ub "read past the end of the input")
  else .error (.ub "dereference of eoi")

namespace LuState

/-- lookup.hpp:112-125 constructor. -/
def init (d : Dfa) (bol : Bool) (state : Nat) : M LuState := do
  let e ← getCell d.rows 1 ixEnd
  .ok { ptr := 1, endState := e != 0, id := ← getCell d.rows 1 ixId,
        uid := ← getCell d.rows 1 ixUserId, bol := bol, endBol := bol, eolState := 0,
        startState := state, pop := hasBit e bitPop,
        pushDfa := ← getCell d.rows 1 ixPushDfa }

/-- lookup.hpp:138-154 `bol_start_state`. -/
def bolStartState (f : Flags) (d : Dfa) (s : LuState) : M LuState := do
  if f.bol ∧ s.bol then
    let state ← getCell d.rows 0 0
    if state ≠ 0 then .ok { s with ptr := state } else .ok s
  else .ok s

/-- lookup.hpp:156-177 `is_eol`; `none` stands for the argument `npos` at 421. -/
def isEol (f : Flags) (d : Dfa) (s : LuState) (c : Option Nat) : M (LuState × Bool) := do
  if f.eol then
    let e ← getCell d.rows s.ptr ixEol
    let s := { s with eolState := e }
    if e ≠ 0 ∧ (c = some 13 ∨ c = some 10) then .ok ({ s with ptr := e }, true)
    else .ok (s, false)
  else .ok (s, false)

/-- lookup.hpp:183-184, 204-205: the entry of row `ptr` for one table index. -/
def step (d : Dfa) (ptr ch : Nat) : M Nat :=
  match d.lookup[ch]? with
  | some col => getCell d.rows ptr col
  | none => .error (.ub "lookup index out of range")

/-- lookup.hpp:202-213: the loop over the bytes of a character. -/
def stepBytes (d : Dfa) (ptr : Nat) : List Nat → Nat → M (Nat × Nat)
  | [], state => .ok (ptr, state)
  | b :: bs, _ => do
    let state ← step d ptr b
    if state = 0 then .ok (ptr, 0) else stepBytes d state bs state

/-- lookup.hpp:179-216 `next_char`.  `bytes` is 1 for single byte characters
(uncompressed version) and otherwise the number of bytes used (2 or 3). -/
def nextChar (bytes : Nat) (d : Dfa) (s : LuState) (c : Nat) : M (LuState × Nat) := do
  if bytes = 1 then
    let state ← step d s.ptr c
    if state ≠ 0 then .ok ({ s with ptr := state }, state) else .ok (s, state)
  else
    let bs := (List.range bytes).map fun i => c / 256 ^ (bytes - 1 - i) % 256
    let (ptr, state) ← stepBytes d s.ptr bs 0
    .ok ({ s with ptr := ptr }, state)

/-- lookup.hpp:261-278 `end_state`; the second component is `end_token_`. -/
def endStep (f : Flags) (d : Dfa) (s : LuState) (endTok curr : Nat) : M (LuState × Nat) := do
  let e ← getCell d.rows s.ptr ixEnd
  if e ≠ 0 then
    let id ← getCell d.rows s.ptr ixId
    let uid ← getCell d.rows s.ptr ixUserId
    let push ← getCell d.rows s.ptr ixPushDfa
    let next ← getCell d.rows s.ptr ixNextDfa
    .ok ({ s with
      endState := true
      endBol := if f.bol then s.bol else s.endBol
      id := id, uid := uid
      pop := if f.recursive then hasBit e bitPop else s.pop
      pushDfa := if f.recursive then push else s.pushDfa
      startState := if f.multiState then next else s.startState }, curr)
  else .ok (s, endTok)

/-- lookup.hpp:407-431, the scanning loop: state, `curr_`, `end_token_`. -/
def scan (f : Flags) (bytes : Nat) (d : Dfa) (inp : List Nat) (eoi : Nat) :
    Nat → LuState → Nat → Nat → M (LuState × Nat × Nat)
  | 0, _, _, _ => .error .fuel
  | fuel + 1, s, curr, endTok =>
    if curr = eoi then .ok (s, curr, endTok)
    else do
      let c ← charAt inp eoi curr
      let (s, eol) ← s.isEol f d (some c)
      if eol then
        let (s, endTok) ← s.endStep f d endTok curr
        scan f bytes d inp eoi fuel s curr endTok
      else
        let (s, state) ← s.nextChar bytes d c
        let s := if f.bol then { s with bol := c == 10 } else s
        if state = 0 then
          let (s, _) ← s.isEol f d none
          .ok (s, curr, endTok)
        else
          let (s, endTok) ← s.endStep f d endTok (curr + 1)
          scan f bytes d inp eoi fuel s (curr + 1) endTok

/-- lookup.hpp:280-302 `check_eol`. -/
def checkEol (f : Flags) (npos : Nat) (d : Dfa) (s : LuState) (endTok curr eoi : Nat) :
    M (LuState × Nat) := do
  if f.eol ∧ s.eolState ≠ npos ∧ curr = eoi then
    let e ← getCell d.rows s.ptr ixEol
    let s := { s with eolState := e }
    if e ≠ 0 then endStep f d { s with ptr := e } endTok curr else .ok (s, endTok)
  else .ok (s, endTok)

/-- lookup.hpp:304-327 `pop`. -/
def popStep (f : Flags) (npos : Nat) (s : LuState) (stack : List (Nat × Nat)) :
    M (LuState × List (Nat × Nat)) :=
  if f.recursive then
    if s.pop then
      match stack with
      | [] => .error (.throw "Stack underflow in lookup_state::pop().")
      | e :: stack => .ok ({ s with startState := e.1 }, stack)
    else if s.pushDfa ≠ npos then .ok (s, (s.pushDfa, s.id) :: stack)
    else .ok (s, stack)
  else .ok (s, stack)

/-- lookup.hpp:329-343 `is_id_eoi`. -/
def isIdEoi (f : Flags) (eoi : Nat) (s : LuState) (stack : List (Nat × Nat)) : Bool :=
  s.id == eoi || (f.recursive && s.pop && (match stack with | e :: _ => e.2 == eoi | [] => false))

end LuState

/-- Bound on the number of iterations of the scanning loop: more iterations mean
that a row was visited twice without consuming a character. -/
def scanFuel (d : Dfa) (eoi curr : Nat) : Nat := (eoi - curr + 1) * (d.rows.length + 1) + 1

/-- lookup.hpp:401-435: one match attempt starting at `curr_`. -/
def attempt (f : Flags) (npos bytes : Nat) (sm : Internals) (inp : List Nat) (r : Results)
    (curr endTok : Nat) : M (LuState × Nat) := do
  let d ← sm.dfaAt r.state
  let s ← LuState.init d r.bol r.state
  let s ← s.bolStartState f d
  let (s, curr, endTok) ← s.scan f bytes d inp r.eoi (scanFuel d r.eoi curr) curr endTok
  s.checkEol f npos d endTok curr r.eoi

/-- lookup.hpp:378-472 `next` from the label `again` on; `fuel` counts the jumps to
`skip` and `again`. -/
def nextLoop (f : Flags) (npos bytes : Nat) (sm : Internals) (inp : List Nat) :
    Nat → Results → Nat → Nat → M Results
  | 0, _, _, _ => .error .fuel
  | fuel + 1, r, curr, endTok =>
    if curr = r.eoi then .ok { r with id := sm.eoi, userId := npos }
    else do
      let (s, endTok) ← attempt f npos bytes sm inp r curr endTok
      if s.endState then
        let (s, stack) ← s.popStep f npos r.stack
        let r := { r with
          stack := stack
          state := if f.multiState then s.startState else r.state
          bol := if f.bol then s.endBol else r.bol
          second := endTok }
        if s.id = npos - 1 then
          nextLoop f npos bytes sm inp fuel { r with first := r.second } r.second endTok
        else if s.isIdEoi f sm.eoi stack then
          nextLoop f npos bytes sm inp fuel r endTok endTok
        else .ok { r with id := s.id, userId := s.uid }
      else
        let c ← charAt inp r.eoi endTok
        .ok { r with
          first := endTok
          second := if f.advance then endTok + 1 else endTok
          bol := c == 10
          id := npos, userId := npos }

/-- lookup.hpp:378-503 `next` / `lookup`, with a bound on the number of jumps. -/
def lookupFuel (f : Flags) (npos bytes : Nat) (sm : Internals) (inp : List Nat) (fuel : Nat)
    (r : Results) : M Results :=
  nextLoop f npos bytes sm inp fuel { r with first := r.second } r.second r.second

/-- lookup.hpp:475-503 `lookup`: the call returns, or throws, or is undefined, with
the outcome `o`. -/
def Returns (f : Flags) (npos bytes : Nat) (sm : Internals) (inp : List Nat) (r : Results)
    (o : M Results) : Prop :=
  o ≠ .error .fuel ∧ ∃ fuel, lookupFuel f npos bytes sm inp fuel r = o

/-- The call of `lookup` never returns. -/
def Diverges (f : Flags) (npos bytes : Nat) (sm : Internals) (inp : List Nat) (r : Results) : Prop :=
  ∀ fuel, lookupFuel f npos bytes sm inp fuel r = .error .fuel

/-- `lookup` with as many jumps as are possible if each of them moves `end_token_`
forward or pops the stack. -/
def lookup (f : Flags) (npos bytes : Nat) (sm : Internals) (inp : List Nat) (r : Results) :
    M Results :=
  lookupFuel f npos bytes sm inp (2 * (r.eoi - r.second) + r.stack.length + 2) r

end Lexertl

import Verif.Model.StringToken
import Verif.Model.Minimise

/-
`basic_char_state_machine` (state_machine.hpp:213-510) and sm_to_csm.hpp.

As in the rest of the model a table of a state machine is a list of rows.  State numbers are
natural numbers; in the code they are `id_type`, so the model is right for machines of at most
`npos` states.
-/
namespace Lexertl

/-- state_machine.hpp:228 `push_pop_dfa`. -/
inductive PushPop
  | neither | push | pop
  deriving DecidableEq, Repr

/-- state_machine.hpp:223-250 `state`; equality is that of all members (239-249).
`_transitions` is a map: the list of its pairs, by increasing key. -/
structure CState where
  endState : Bool
  pushPop : PushPop
  id : Nat
  userId : Nat
  pushDfa : Nat
  nextDfa : Nat
  eolIndex : Nat
  transitions : List (Nat × Token)
  deriving DecidableEq, Repr

/-- state_machine.hpp:258-278 `dfa`. -/
structure CDfa where
  bol : Nat
  states : List CState
  deriving DecidableEq, Repr

/-- state_machine.hpp:230-236: a state as the constructor leaves it. -/
def CState.new (npos : Nat) : CState := ⟨false, .neither, 0, npos, npos, 0, npos, []⟩

/-- state_machine.hpp:346-358 and 487-500: look up a key in the map; insert the pair or insert
the charset into the one that is there. -/
def transAdd (k : Nat) (t : Token) : List (Nat × Token) → List (Nat × Token)
  | [] => [(k, t)]
  | (k', t') :: m =>
    if k < k' then (k, t) :: (k', t') :: m
    else if k = k' then (k', t'.insertToken t) :: m
    else (k', t') :: transAdd k t m

/-- state_machine.hpp:339-360: the loop over the columns, from column `col` on. -/
def csmTrans (tokens : List Token) : List Nat → Nat → List (Nat × Token) → M (List (Nat × Token))
  | [], _, m => .ok m
  | next :: cells, col, m =>
    if next > 0 then
      match tokens[col]? with
      | some t => csmTrans tokens cells (col + 1) (transAdd (next - 1) t m)
      | none => .error (.ub "token_vector_ out of range")
    else csmTrans tokens cells (col + 1) m

/-- state_machine.hpp:314-360: one state of `append`. -/
def csmState (npos : Nat) (tokens : List Token) (row : Row) : M CState :=
  match row with
  | e :: id :: uid :: push :: next :: eol :: _ :: cells => do
    let m ← csmTrans tokens cells 0 []
    .ok ⟨decide (e ≠ 0), if push ≠ npos then .push else if hasBit e bitPop then .pop else .neither,
      id, uid, push, next, if eol ≠ 0 then eol - 1 else npos, m⟩
  | _ => .error (.ub "row too short")

/-- The loop over the rows in `append` (312-361). -/
def csmStates (npos : Nat) (tokens : List Token) : List Row → M (List CState)
  | [] => .ok []
  | row :: rows => do
    let s ← csmState npos tokens row
    let ss ← csmStates npos tokens rows
    .ok (s :: ss)

/-- state_machine.hpp:288-362 `append`, the machine it appends. -/
def csmAppend (npos : Nat) (tokens : List Token) (rows : List Row) : M CDfa :=
  match rows with
  | (b :: _) :: rows => do
    let states ← csmStates npos tokens rows
    .ok ⟨if b ≠ 0 then b - 1 else npos, states⟩
  | _ => .error (.ub "source_dfa_.front()")

/-- sm_to_csm.hpp:38-48: the loop over the characters `c`, `c + 1`, ..., for which `cols` are
the columns. -/
def csmTokens : List Nat → Nat → List Token → M (List Token)
  | [], _, tokens => .ok tokens
  | col :: cols, c, tokens =>
    if col ≥ ixTransitions then
      match tokens[col - ixTransitions]? with
      | some t => csmTokens cols (c + 1) (tokens.set (col - ixTransitions) (t.insert (c, c)))
      | none => .error (.ub "token_vector_ out of range")
    else csmTokens cols (c + 1) tokens

/-- sm_to_csm.hpp:31-50: one lexer state, unless it has no alphabet. -/
def csmDfa (npos : Nat) (lookup : List Nat) (alphabet : Nat) (rows : List Row) : M (List CDfa) :=
  if alphabet = 0 then .ok []
  else if alphabet < ixTransitions then .error (.ub "negative alphabet size")
  else if lookup.length < 256 then .error (.ub "_lookup out of range")
  else do
    let tokens ← csmTokens (lookup.take 256) 0 (List.replicate (alphabet - ixTransitions) [])
    let d ← csmAppend npos tokens rows
    .ok [d]

/-- sm_to_csm.hpp:29-51: the loop over the lexer states. -/
def csmDfas (npos : Nat) : List (List Nat) → List Nat → List (List Row) → M (List CDfa)
  | _, _, [] => .ok []
  | l :: ls, a :: as, rows :: rest => do
    let d ← csmDfa npos l a rows
    let ds ← csmDfas npos ls as rest
    .ok (d ++ ds)
  | _, _, _ => .error (.ub "internals")

/-- sm_to_csm.hpp:18-52 `sm_to_csm`, into an empty char state machine. -/
def smToCsm (npos : Nat) (sm : Internals) : M (List CDfa) := csmDfas npos sm.lookup sm.alphabet sm.dfa

/-- state_machine.hpp:430-445: the loop over `second_`; `curr` is `curr_index_`, the list holds
the states from there on.  State: `lookup_` and `index_set_`. -/
def csmInner (st : CState) (newIx : Nat) : List CState → Nat → List Nat × List Nat → List Nat × List Nat
  | [], _, r => r
  | s :: ss, curr, (lookup, set) =>
    if curr ∈ set then csmInner st newIx ss (curr + 1) (lookup, set)
    else if st = s then csmInner st newIx ss (curr + 1) (lookup.set curr newIx, curr :: set)
    else csmInner st newIx ss (curr + 1) (lookup, set)

/-- state_machine.hpp:428-452: the loop over `first_`; `index` is `index_`, `newIx` is
`new_index_`. -/
def csmOuter (npos : Nat) : List CState → Nat → Nat → List Nat × List Nat → List Nat × List Nat
  | [], _, _, r => r
  | s :: ss, index, newIx, r =>
    let (lookup, set) := csmInner s newIx ss (index + 1) r
    if lookup[index]? = some npos then
      csmOuter npos ss (index + 1) (newIx + 1) (lookup.set index newIx, set)
    else csmOuter npos ss (index + 1) newIx (lookup, set)

/-- state_machine.hpp:485-501: the loop over the transitions. -/
def csmRemap (lookup : List Nat) : List (Nat × Token) → List (Nat × Token) → M (List (Nat × Token))
  | [], m => .ok m
  | (k, t) :: ts, m => do
    let k ← mapIx lookup k
    csmRemap lookup ts (transAdd k t m)

/-- state_machine.hpp:475-501: one state of the new machine.  `_id` gets the end flag (476),
`_push_pop_dfa` and `_push_dfa` stay as the constructor left them. -/
def csmMinState (npos : Nat) (lookup : List Nat) (s : CState) : M CState := do
  let eol ← if s.eolIndex ≠ npos then mapIx lookup s.eolIndex else .ok npos
  let m ← csmRemap lookup s.transitions []
  .ok { CState.new npos with
    endState := s.endState, id := if s.endState then 1 else 0, userId := s.userId, nextDfa := s.nextDfa
    eolIndex := eol, transitions := m }

/-- state_machine.hpp:467-505: the states from number `index` on. -/
def csmMinStates (npos : Nat) (lookup set : List Nat) : List CState → Nat → M (List CState)
  | [], _ => .ok []
  | s :: ss, index =>
    if index ∈ set then csmMinStates npos lookup set ss (index + 1)
    else do
      let s ← csmMinState npos lookup s
      let ss ← csmMinStates npos lookup set ss (index + 1)
      .ok (s :: ss)

/-- state_machine.hpp:418-509 `minimise_dfa`. -/
def csmMinimiseDfa (npos : Nat) (d : CDfa) : M CDfa :=
  let (lookup, set) := csmOuter npos d.states 0 0 (List.replicate d.states.length npos, [])
  if set = [] then .ok d
  else do
    let bol ← if d.bol ≠ npos then mapIx lookup d.bol else .ok npos
    let states ← csmMinStates npos lookup set d.states 0
    .ok ⟨bol, states⟩

/-- state_machine.hpp:386-390: the `do` loop; `fuel` bounds the number of passes. -/
def csmMinimiseLoop (npos : Nat) : Nat → CDfa → M CDfa
  | 0, _ => .error .fuel
  | fuel + 1, d => do
    let d' ← csmMinimiseDfa npos d
    if d'.states.length ≠ d.states.length then csmMinimiseLoop npos fuel d' else .ok d'

/-- state_machine.hpp:374-393 `minimise`. -/
def csmMinimise (npos : Nat) : List CDfa → M (List CDfa)
  | [] => .ok []
  | d :: ds => do
    let d ← if d.states.length > 0 then csmMinimiseLoop npos (d.states.length + 1) d else .ok d
    let ds ← csmMinimise npos ds
    .ok (d :: ds)

end Lexertl

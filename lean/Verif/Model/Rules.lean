import Verif.Model.Tokeniser
import Verif.Model.Generator

/-
Model of `rules.hpp` and `abstemious.hpp`: macros, lexer states, rules.

A call may throw after it has changed the object, so a call gives the object after it
together with its outcome.  Strings are lists of characters without the character 0.  The
vectors `_regexes`, `_ids`, `_user_ids`, `_next_dfas`, `_pushes` and `_pops`, which are
always extended together, are one list of `Rule`s per lexer state; `_regex_strings` is not
modelled (nothing reads it but `debug.hpp`).
-/
namespace Lexertl

/-- rules.hpp:491-503: the members of `basic_rules`.  The maps are lists of pairs with
different keys, in order of insertion. -/
structure RulesObj where
  flags : ReFlags := {}
  statemap : List (List Nat × Nat)
  names : List (List Nat)
  macros : List (List Nat × List Tok)
  features : List Nat
  states : List (List Rule)
  deriving DecidableEq, Repr

/-- `std::map::find`. -/
def find (key : List Nat) : List (List Nat × α) → Option α
  | [] => none
  | (k, v) :: m => if k = key then some v else find key m

/-- rules.hpp:1254-1292 `validate`: whether the name is accepted. -/
def validName : List Nat → Bool
  | [] => false
  | c :: cs => isLetter c && cs.all isNameChar

/-- rules.hpp:468-474 `initial`. -/
def initialName : List Nat := chars "INITIAL"

def isLazy : TT → Bool
  | .aopt | .azeroormore | .aoneormore | .arepeatn => true
  | _ => false

/-! ### `abstemious.hpp` -/

/-- abstemious.hpp:98-132 `end_block`, on the tokens from its `start_ + 1` on: the tokens
from the result on. -/
def endBlock : Nat → List Tok → List Tok
  | _, [] => []
  | n, t :: ts =>
    match t.type with
    | .or_ => if n = 0 then t :: ts else endBlock n ts
    | .openparen => endBlock (n + 1) ts
    | .closeparen => if n = 0 then t :: ts else endBlock (n - 1) ts
    | .end_ => t :: ts
    | _ => endBlock n ts

/-- abstemious.hpp:71-96 `is_end`, on the tokens after the operator; `n` bounds the number
of rounds. -/
def isEnd : Nat → List Tok → Bool
  | 0, _ => true
  | _ + 1, [] => true
  | n + 1, t :: ts =>
    match t.type with
    | .or_ => isEnd n (endBlock 0 ts.tail)
    | .closeparen => isEnd n ts
    | .end_ => true
    | _ => false

/-- abstemious.hpp:143-160: how many tokens, going back, until the matching `(`. -/
def blockLen : Nat → List Tok → Option Nat
  | _, [] => none
  | n, t :: ts =>
    match t.type with
    | .openparen => if n = 1 then some 1 else (blockLen (n - 1) ts).map (· + 1)
    | .closeparen => (blockLen (n + 1) ts).map (· + 1)
    | _ => (blockLen n ts).map (· + 1)

/-- abstemious.hpp:170-177: widen `[start, idx]` over surrounding parentheses. -/
def widen (toks : List Tok) : Nat → Nat → Nat → M (Nat × Nat)
  | 0, _, _ => .error .fuel
  | n + 1, start, idx =>
    match start, toks[idx + 1]? with
    | start + 1, some r =>
      match toks[start]? with
      | some l =>
        if l.type = .openparen ∧ r.type = .closeparen then widen toks n start (idx + 1)
        else .ok (start + 1, idx)
      | none => .error (.ub "tokens_")
    | _, _ => .error (.ub "tokens_")

/-- abstemious.hpp:134-188 `remove_sequence`: the tokens, `start_` and `idx_` after it. -/
def removeSequence (toks : List Tok) (idx : Nat) : M (List Tok × Nat × Nat) :=
  match (toks.take idx).reverse with
  | [] => .error (.ub "tokens_")
  | t :: before => do
    let start ←
      if t.type = .closeparen then
        match blockLen 1 before with
        | some n => .ok (idx - 1 - n)
        | none => .error (.ub "tokens_")
      else .ok (idx - 1)
    let (start, idx) ← widen toks (toks.length + 1) start idx
    let toks := toks.take start ++ toks.drop (idx + 1)
    match toks[start]? with
    | none => .error (.ub "tokens_")
    | some t =>
      if t.type = .or_ then .ok (toks.eraseIdx start, start, idx)
      else if t.type ≠ .begin ∧ (toks[start - 1]?).map (·.type) = some .or_ then
        .ok (toks.eraseIdx (start - 1), start, idx)
      else .ok (toks, start, idx)

/-- abstemious.hpp:46: the text before the first comma. -/
def beforeComma (cs : List Nat) : List Nat := cs.takeWhile (· ≠ 44)

/-- abstemious.hpp:24-69 `prune`; `idxs` holds `indexes_`, the last first; `n` bounds the
number of rounds. -/
def pruneLoop : Nat → List Tok → List Nat → M (List Tok)
  | 0, _, _ => .error .fuel
  | _ + 1, toks, [] => .ok toks
  | n + 1, toks, idx :: idxs =>
    match toks[idx]? with
    | none => .error (.ub "tokens_")
    | some op => do
      let (toks, start, idx) ←
        if isEnd (toks.length + 1) (toks.drop (idx + 1)) then
          match op.type with
          | .aopt | .azeroormore => removeSequence toks idx
          | .aoneormore => .ok (toks.eraseIdx idx, idx, idx)
          | .arepeatn =>
            let extra := beforeComma op.extra
            let toks := toks.set idx { op with type := .repeatn, extra := extra }
            if extra = [48] then removeSequence toks idx else .ok (toks, idx, idx)
          | _ => .ok (toks, idx, idx)
        else .ok (toks, idx, idx)
      pruneLoop n toks (idxs.dropWhile (fun i => start ≤ i && i ≤ idx))

/-- rules.hpp:621-642 `record_abstemious`: the places of the lazy operators. -/
def lazyIndexes (toks : List Tok) : List Nat :=
  (List.range toks.length).filter (fun i => (toks[i]?).any (fun t => isLazy t.type))

/-! ### `rules.hpp` -/

/-- rules.hpp:595-619 `balanced_parens`. -/
def balanced : Nat → List Tok → Bool
  | n, [] => n == 0
  | n, t :: ts =>
    match t.type with
    | .openparen => balanced (n + 1) ts
    | .closeparen => if n = 0 then false else balanced (n - 1) ts
    | _ => balanced n ts

/-- rules.hpp:572-593 `strip_parens`; `n` bounds the number of rounds. -/
def stripParens : Nat → List Tok → List Tok
  | 0, toks => toks
  | n + 1, toks =>
    let rhs := toks.length - 2
    if 1 < rhs ∧ (toks[1]?).map (·.type) = some .openparen ∧
        (toks[rhs]?).map (·.type) = some .closeparen ∧
        balanced 0 ((toks.take rhs).drop 2) = true then
      stripParens n ((toks.eraseIdx rhs).eraseIdx 1)
    else toks

def beginTok : Tok := ⟨.begin, [], []⟩
def endTok : Tok := ⟨.end_, [], []⟩

/-- rules.hpp:917-967 `split`: `cur` holds the tokens since `start_`. -/
def splitOr : Int → List Tok → List Tok → List (List Tok)
  | _, _, [] => []
  | n, cur, t :: ts =>
    match t.type with
    | .openparen => splitOr (n + 1) (cur ++ [t]) ts
    | .closeparen => splitOr (n - 1) (cur ++ [t]) ts
    | .or_ =>
      if n = 0 then (beginTok :: cur ++ [endTok]) :: splitOr n [] ts else splitOr n (cur ++ [t]) ts
    | .end_ => (beginTok :: cur ++ [endTok]) :: splitOr n (cur ++ [t]) ts
    | _ => splitOr n (cur ++ [t]) ts

/-- rules.hpp:833-891 `check_diff`: the new last token. -/
def checkDiff (diff : Nat) (lhs rhs : Tok) : M Tok :=
  if rhs.type ≠ .charset then throw_ "CHARSET must follow {-} or {+}"
  else if diff = 45 then
    match lhs.str.remove rhs.str with
    | none => .error .fuel
    | some str =>
      if str = [] then throw_ "Empty charset created by {-}" else .ok { lhs with str := str }
  else if diff = 43 then .ok { lhs with str := lhs.str.insertToken rhs.str }
  else .ok lhs

def openTok : Tok := ⟨.openparen, [], [(40, 40)]⟩
def closeTok : Tok := ⟨.closeparen, [], [(41, 41)]⟩

/-- rules.hpp:739-795: the tokens a macro stands for.  `atStart`: no token precedes;
`atEnd`: no text follows. -/
def expandMacro (mac : List Tok) (atStart atEnd : Bool) : M (List Tok) :=
  match mac[1]?, mac[mac.length - 2]? with
  | some first, some second =>
    let multiple := decide (mac.length > 3)
    let bol := atStart && first.type == .bol
    let caret := !bol && first.type == .bol
    let eol := atEnd && second.type == .eol
    let dollar := !eol && second.type == .eol
    let body :=
      (if caret then [⟨.charset, [], [(94, 94)]⟩] else []) ++
      (mac.take (mac.length - (if dollar then 2 else 1))).drop (if caret then 2 else 1) ++
      (if dollar then [⟨.charset, [], [(36, 36)]⟩] else [])
    .ok (if multiple && !(bol || eol) then openTok :: body ++ [closeTok] else body)
  | _, _ => .error (.ub "iter_->second")

/-- rules.hpp:518-549: the loop of `tokenise`, with 644-797 `check_diff_error`,
`process_macro`, `process_diff`; `n` bounds the number of rounds. -/
def tokLoop (E : TokEnv) (macros : List (List Nat × List Tok)) :
    Nat → List Tok → List Nat → Option Nat → TkState → M (List Tok)
  | 0, _, _, _, _ => .error .fuel
  | n + 1, toks, mac, diff, st =>
    match toks.getLast? with
    | none => .error (.ub "tokens_.back()")
    | some lhs => do
      let (rhs, st) ← st.next E lhs.type
      match rhs with
      | .diff c =>
        if mac ≠ [] ∧ ((find mac macros).map List.length).getD 0 > 3 then
          throw_ "Single CHARSET must precede {-} or {+}"
        else tokLoop E macros n toks [] (some c) st
      | .tok rhs =>
        if prec lhs.type rhs.type = .err then throw_ "A syntax error occurred"
        else do
          let (toks, mac) ←
            if rhs.type = .macro_ then
              match find rhs.extra macros with
              | none => throw_ "Unknown MACRO name"
              | some m =>
                match diff with
                | some d =>
                  match m[1]? with
                  | none => .error (.ub "iter_->second")
                  | some first => do
                    if m.length > 3 then throw_ "Single CHARSET must follow {-} or {+}"
                    let lhs ← checkDiff d lhs first
                    .ok (toks.dropLast ++ [lhs], rhs.extra)
                | none => do
                  let body ← expandMacro m (toks.length == 1) (st.rest == [])
                  .ok (toks ++ body, rhs.extra)
            else
              match diff with
              | some d => do
                let lhs ← checkDiff d lhs rhs
                .ok (toks.dropLast ++ [lhs], mac)
              | none => .ok (toks ++ [rhs], [])
          if (toks.getLast?).map (·.type) = some .end_ then .ok toks
          else tokLoop E macros n toks mac none st

/-- rules.hpp:505-570 `tokenise`; `isMacro` tells whether `name_` is given. -/
def tokenise (E : TokEnv) (flags : ReFlags) (macros : List (List Nat × List Tok)) (isMacro : Bool)
    (regex : List Nat) : M (List (List Tok)) := do
  let toks ← tokLoop E macros (regex.length + 2) [beginTok] [] none
    { len := regex.length, rest := regex, flags := flags }
  let toks := stripParens toks.length toks
  let toks ← if isMacro then .ok toks
    else pruneLoop (toks.length + 1) toks (lazyIndexes toks).reverse
  if toks.length = 2 ∧ flags.matchZeroLen = false then throw_ "Empty regex is not allowed"
  else if isMacro ∨ lazyIndexes toks = [] then .ok [toks]
  else .ok (splitOr 0 [] toks.tail)

/-- rules.hpp:1294-1306 `check_for_invalid_id`. -/
def checkId (tr : Traits) (id : Nat) : M Unit :=
  if id = 0 then throw_ "Cannot re-use the id for eoi."
  else if id = tr.npos then throw_ "The id npos is reserved for the UNKNOWN token."
  else .ok ()

namespace RulesObj

/-- rules.hpp:196-231 `push_state`: the index of the state. -/
def pushState (tr : Traits) (name : List Nat) (o : RulesObj) : RulesObj × M Nat :=
  if validName name = false then (o, throw_ "Invalid name")
  else
    match find name o.statemap with
    | some i => (o, .ok i)
    | none =>
      let o := { o with
        statemap := o.statemap ++ [(name, tr.toId o.statemap.length)]
        states := o.states ++ [[]]
        features := o.features ++ [0]
        names := if name ≠ initialName then o.names ++ [name] else o.names }
      if o.states.length > tr.npos then (o, throw_ "The id_type you have chosen cannot hold this many lexer start states.")
      else (o, .ok (tr.toId o.names.length))

/-- rules.hpp:74-80 the constructor. -/
def new (tr : Traits) (flags : ReFlags) : RulesObj :=
  (pushState tr initialName ⟨flags, [], [], [], [], []⟩).1

/-- rules.hpp:85-105 `clear()` (not `_WIN32`). -/
def clearAll (tr : Traits) (_ : RulesObj) : RulesObj := new tr {}

/-- rules.hpp:107-120 `clear(dfa_)`. -/
def clearState (dfa : Nat) (o : RulesObj) : RulesObj :=
  if o.states.length > dfa then
    { o with states := o.states.set dfa [], features := o.features.set dfa 0 }
  else o

/-- rules.hpp:122-125 `flags(flags_)`. -/
def setFlags (flags : ReFlags) (o : RulesObj) : RulesObj := { o with flags := flags }

/-- rules.hpp:160-179 `state(index_)`. -/
def stateName (tr : Traits) (i : Nat) (o : RulesObj) : Option (List Nat) :=
  if i = 0 then some initialName else o.names[tr.toId (i - 1)]?

/-- rules.hpp:181-194 `state(name_)`. -/
def stateId (tr : Traits) (name : List Nat) (o : RulesObj) : Nat := (find name o.statemap).getD tr.npos

/-- rules.hpp:246-270 `insert_macro`. -/
def insertMacro (E : TokEnv) (name regex : List Nat) (o : RulesObj) : RulesObj × M Unit :=
  if validName name = false then (o, throw_ "Invalid name")
  else
    match find name o.macros with
    | some _ => (o, throw_ "Attempt to redefine MACRO")
    | none =>
      let o' := { o with macros := o.macros ++ [(name, [])] }
      match tokenise E o'.flags o'.macros true regex with
      | .error e => (o', .error e)
      | .ok tss =>
        match tss.getLast? with
        | none => (o', .error (.ub "tokens_vec_.back()"))
        | some ts => ({ o with macros := o.macros ++ [(name, ts)] }, .ok ())

/-- rules.hpp:302-330, 1205-1250: the features a rule adds; `first` is the token vector
looked at for `^`. -/
def ruleFeatures (tr : Traits) (first last : List Tok) (id : Nat) (recursive : Bool) : M Nat :=
  match first[1]?, last[last.length - 2]? with
  | some b, some e =>
    .ok ((if b.type = .bol then 1 else 0) ||| (if e.type = .eol then 2 else 0) |||
      (if id = tr.npos - 1 then 4 else if id = 0 then 8 else 0) ||| (if recursive then 32 else 0))
  | _, _ => .error (.ub "tokens_vec_")

/-- Extend the lexer state `curr` by rules and features. -/
def extend (curr : Nat) (rs : List Rule) (f : Nat) (o : RulesObj) : RulesObj :=
  { o with
    states := o.states.modify curr (· ++ rs)
    features := o.features.modify curr (· ||| f) }

/-- rules.hpp:292-332 `push` of a rule of the lexer state INITIAL. -/
def pushInitial (E : TokEnv) (tr : Traits) (regex : List Nat) (id userId : Nat) (o : RulesObj) : RulesObj × M Unit :=
  match checkId tr id with
  | .error e => (o, .error e)
  | .ok _ =>
    match tokenise E o.flags o.macros false regex with
    | .error e => (o, .error e)
    | .ok tss =>
      match tss.head?, tss.getLast? with
      | some first, some last =>
        match ruleFeatures tr first last id false with
        | .error e => (o, .error e)
        | .ok f =>
          if o.states = [] then (o, .error (.ub "_features.front()"))
          else (o.extend 0 (tss.map fun ts => ⟨ts, id, userId, 0, tr.npos, false⟩) f, .ok ())
      | _, _ => (o, .error (.ub "tokens_vec_"))

/-- What `new_dfa_` asks for. -/
inductive Target
  | stay
  | pop
  | goto (name : List Nat)
  | push (name : List Nat) (exit : Option (List Nat))
  deriving DecidableEq, Repr

/-- rules.hpp:1076-1082: the text up to the first `:` and the text after it. -/
def splitColon : List Nat → List Nat × Option (List Nat)
  | [] => ([], none)
  | c :: cs => if c = 58 then ([], some cs) else let (a, b) := splitColon cs; (c :: a, b)

/-- rules.hpp:1056-1099: reading `new_dfa_`. -/
def parseTarget (newDfa : List Nat) : M Target :=
  if newDfa = [46] then .ok .stay
  else if newDfa.head? = some 60 then .ok .pop
  else
    let push := newDfa.head? = some 62
    let (name, exit) := splitColon (if push then newDfa.tail else newDfa)
    if validName name = false then throw_ "Invalid name"
    else if push then
      if exit.all validName then .ok (.push name exit) else throw_ "Invalid name"
    else if exit.isSome then throw_ "Exit state is missing '>'"
    else .ok (.goto name)

/-- rules.hpp:1159-1194: the names in `curr_dfa_`, separated by commas. -/
def splitComma : List Nat → List (List Nat)
  | [] => []
  | [c] => if c = 44 then [[]] else [[c]]
  | c :: cs =>
    if c = 44 then [] :: splitComma cs
    else
      match splitComma cs with
      | [] => [[c]]
      | n :: ns => (c :: n) :: ns

/-- rules.hpp:1178-1192: the index of a named state. -/
def known (name : List Nat) (o : RulesObj) : M Nat :=
  if validName name = false then throw_ "Invalid name"
  else
    match find name o.statemap with
    | none => throw_ "Unknown state name"
    | some i => .ok i

/-- rules.hpp:1149-1194: the lexer states a rule is added to. -/
def currStates (tr : Traits) (currDfa : List Nat) (o : RulesObj) : M (List Nat) :=
  if currDfa = [42] then .ok (List.range (tr.toId o.statemap.length))
  else (splitComma currDfa).mapM (fun name => o.known name)

/-- rules.hpp:1101-1147: the indices of the new state and of the state to return to. -/
def targetIds (tr : Traits) (t : Target) (o : RulesObj) : M (Nat × Nat) :=
  match t with
  | .stay | .pop => .ok (tr.npos, tr.npos)
  | .goto name =>
    match find name o.statemap with
    | none => throw_ "Unknown state name"
    | some i => .ok (i, tr.npos)
  | .push name exit =>
    match find name o.statemap with
    | none => throw_ "Unknown state name"
    | some i =>
      match exit with
      | none => .ok (i, tr.npos)
      | some exit =>
        match find exit o.statemap with
        | none => throw_ "Unknown state name"
        | some j => .ok (i, j)

/-- rules.hpp:1231-1249: a rule of the lexer state `curr`. -/
def mkRule (tr : Traits) (t : Target) (ids : Nat × Nat) (curr id userId : Nat) (ts : List Tok) : Rule :=
  match t with
  | .stay => ⟨ts, id, userId, curr, tr.npos, false⟩
  | .pop => ⟨ts, id, userId, ids.1, tr.npos, true⟩
  | .goto _ => ⟨ts, id, userId, ids.1, tr.npos, false⟩
  | .push _ none => ⟨ts, id, userId, ids.1, curr, false⟩
  | .push _ (some _) => ⟨ts, id, userId, ids.1, ids.2, false⟩

def Target.recursive : Target → Bool
  | .pop | .push _ _ => true
  | _ => false

/-- rules.hpp:1196-1251: the loop over the lexer states. -/
def pushLoop (E : TokEnv) (tr : Traits) (regex : List Nat) (t : Target) (ids : Nat × Nat) (id userId : Nat) :
    List Nat → RulesObj → RulesObj × M Unit
  | [], o => (o, .ok ())
  | curr :: currs, o =>
    match tokenise E o.flags o.macros false regex with
    | .error e => (o, .error e)
    | .ok tss =>
      match tss.getLast? with
      | none => (o, .error (.ub "tokens_vec_"))
      | some last =>
        match ruleFeatures tr last last id t.recursive with
        | .error e => (o, .error e)
        | .ok f =>
          if curr < o.states.length then
            pushLoop E tr regex t ids id userId currs (o.extend curr (tss.map (mkRule tr t ids curr id userId)) f)
          else (o, .error (.ub "_features[curr_]"))

/-- rules.hpp:1052-1194: the checks before a rule is added. -/
def pushPlan (tr : Traits) (currDfa : List Nat) (id : Option Nat) (newDfa : List Nat) (o : RulesObj) :
    M (Target × (Nat × Nat) × List Nat) := do
  match id with
  | some id => checkId tr id
  | none => .ok ()
  let t ← parseTarget newDfa
  let ids ← o.targetIds tr t
  let currs ← o.currStates tr currDfa
  .ok (t, ids, currs)

/-- rules.hpp:1052-1252 `push` of a rule with its lexer states; `id` is `none` in the
overloads without an id (rules.hpp:334-352). -/
def pushNamed (E : TokEnv) (tr : Traits) (currDfa regex : List Nat) (id : Option Nat) (newDfa : List Nat)
    (userId : Nat) (o : RulesObj) : RulesObj × M Unit :=
  match o.pushPlan tr currDfa id newDfa with
  | .error e => (o, .error e)
  | .ok (t, ids, currs) => pushLoop E tr regex t ids (id.getD 0) userId currs o

/-- What the generator reads of the object. -/
def rules (o : RulesObj) : Rules := ⟨o.states, o.features, 0, o.flags.matchZeroLen, o.flags.allowSuppressed⟩

end RulesObj

end Lexertl

import Verif.Model.Partition
import Verif.Model.Tree

/-
Model of `parser/parser.hpp` and of the precedence table in
`parser/tokeniser/re_token.hpp`.
-/
namespace Lexertl

/-- re_token.hpp:19-25 `token_type` (without `DIFF`, which the parser never
sees). -/
inductive TT
  | begin | regex | orexp | sequence | sub | expression | repeat_ | dup | or_ | charset
  | bol | eol | macro_ | openparen | closeparen | opt | aopt | zeroormore | azeroormore
  | oneormore | aoneormore | repeatn | arepeatn | end_
  deriving DecidableEq, Repr

/-- re_token.hpp:28-35 `basic_re_token`; `extra` holds character codes. -/
structure Tok where
  type : TT
  extra : List Nat := []
  str : Token := []
  deriving DecidableEq, Repr

/-- Entries of the precedence table: `'<'`, `'='`, `'>'`, `' '`. -/
inductive Action
  | lt | eq | gt | err
  deriving DecidableEq, Repr

/-- re_token.hpp:57-91 `precedence` (the table was transcribed mechanically). -/
def prec (l r : TT) : Action :=
  match l with
  | .begin => match r with
    | .regex | .orexp | .sequence | .sub | .expression | .repeat_ | .charset | .bol | .eol | .macro_ | .openparen => .lt
    | .end_ => .gt
    | _ => .err
  | .regex => match r with
    | .closeparen => .eq
    | .end_ => .gt
    | _ => .err
  | .orexp => match r with
    | .or_ => .eq
    | .charset | .bol | .eol | .macro_ | .closeparen | .end_ => .gt
    | _ => .err
  | .sequence => match r with
    | .or_ | .charset | .bol | .eol | .macro_ | .closeparen | .end_ => .gt
    | _ => .err
  | .sub => match r with
    | .repeat_ | .charset | .bol | .eol | .macro_ | .openparen => .lt
    | .expression => .eq
    | .or_ | .closeparen | .end_ => .gt
    | _ => .err
  | .expression => match r with
    | .or_ | .charset | .bol | .eol | .macro_ | .openparen | .closeparen | .end_ => .gt
    | _ => .err
  | .repeat_ => match r with
    | .opt | .aopt | .zeroormore | .azeroormore | .oneormore | .aoneormore | .repeatn | .arepeatn => .lt
    | .dup => .eq
    | .or_ | .charset | .bol | .eol | .macro_ | .openparen | .closeparen | .end_ => .gt
    | _ => .err
  | .dup => match r with
    | .or_ | .charset | .bol | .eol | .macro_ | .openparen | .closeparen | .end_ => .gt
    | _ => .err
  | .or_ => match r with
    | .sub | .expression | .repeat_ | .charset | .bol | .eol | .macro_ | .openparen => .lt
    | .sequence => .eq
    | _ => .err
  | .charset => match r with
    | .or_ | .charset | .bol | .eol | .macro_ | .openparen | .closeparen | .opt | .aopt | .zeroormore | .azeroormore | .oneormore | .aoneormore | .repeatn | .arepeatn | .end_ => .gt
    | _ => .err
  | .bol => match r with
    | .or_ | .charset | .bol | .eol | .macro_ | .openparen | .closeparen | .opt | .aopt | .zeroormore | .azeroormore | .oneormore | .aoneormore | .repeatn | .arepeatn | .end_ => .gt
    | _ => .err
  | .eol => match r with
    | .or_ | .charset | .bol | .eol | .macro_ | .openparen | .closeparen | .opt | .aopt | .zeroormore | .azeroormore | .oneormore | .aoneormore | .repeatn | .arepeatn | .end_ => .gt
    | _ => .err
  | .macro_ => match r with
    | .or_ | .charset | .bol | .eol | .macro_ | .openparen | .closeparen | .opt | .aopt | .zeroormore | .azeroormore | .oneormore | .aoneormore | .repeatn | .arepeatn | .end_ => .gt
    | _ => .err
  | .openparen => match r with
    | .orexp | .sequence | .sub | .expression | .repeat_ | .charset | .bol | .eol | .macro_ | .openparen => .lt
    | .regex => .eq
    | _ => .err
  | .closeparen => match r with
    | .or_ | .charset | .bol | .eol | .macro_ | .openparen | .closeparen | .opt | .aopt | .zeroormore | .azeroormore | .oneormore | .aoneormore | .repeatn | .arepeatn | .end_ => .gt
    | _ => .err
  | .opt => match r with
    | .opt => .lt
    | .or_ | .charset | .bol | .eol | .macro_ | .openparen | .closeparen | .end_ => .gt
    | _ => .err
  | .aopt => match r with
    | .or_ | .charset | .bol | .eol | .macro_ | .openparen | .closeparen | .end_ => .gt
    | _ => .err
  | .zeroormore => match r with
    | .opt => .lt
    | .or_ | .charset | .bol | .eol | .macro_ | .openparen | .closeparen | .end_ => .gt
    | _ => .err
  | .azeroormore => match r with
    | .or_ | .charset | .bol | .eol | .macro_ | .openparen | .closeparen | .end_ => .gt
    | _ => .err
  | .oneormore => match r with
    | .opt => .lt
    | .or_ | .charset | .bol | .eol | .macro_ | .openparen | .closeparen | .end_ => .gt
    | _ => .err
  | .aoneormore => match r with
    | .or_ | .charset | .bol | .eol | .macro_ | .openparen | .closeparen | .end_ => .gt
    | _ => .err
  | .repeatn => match r with
    | .opt => .lt
    | .or_ | .charset | .bol | .eol | .macro_ | .openparen | .closeparen | .end_ => .gt
    | _ => .err
  | .arepeatn => match r with
    | .or_ | .charset | .bol | .eol | .macro_ | .openparen | .closeparen | .end_ => .gt
    | _ => .err
  | .end_ => .err

/-- The parser object (parser.hpp:199-204) without `_token_stack` (a separate
argument below), together with the state shared by the parses of one lexer state
(`charset_map_`, `cr_id_`, `nl_id_`, the node store).  Stacks have their top
first. -/
structure PState where
  heap : Heap
  charsets : CharsetMap
  crId : Nat
  nlId : Nat
  trees : List Tree
  deriving DecidableEq, Repr

/-- string_token.hpp:66-70 `operator <` (lexicographic on the ranges, ranges
lexicographic on their bounds). -/
def Token.lt : Token → Token → Bool
  | [], [] => false
  | [], _ :: _ => true
  | _ :: _, [] => false
  | a :: s, b :: t =>
    if a.1 < b.1 ∨ (a.1 = b.1 ∧ a.2 < b.2) then true
    else if b.1 < a.1 ∨ (b.1 = a.1 ∧ b.2 < a.2) then false
    else Token.lt s t

/-- `std::map::insert` of a key that is not present. -/
def CharsetMap.insert (t : Token) (id : Nat) : CharsetMap → CharsetMap
  | [] => [(t, id)]
  | e :: m => if Token.lt t e.1 then (t, id) :: e :: m else e :: CharsetMap.insert t id m

namespace PState

/-- parser.hpp:739-763 `lookup`.  The guard at 744 compares
`static_cast<id_type>(npos)` with `npos` and so never fires. -/
def lookup (tr : Traits) (p : PState) (t : Token) : PState × Nat :=
  match p.charsets.find? (fun e => e.1 == t) with
  | some e => (p, e.2)
  | none =>
    let id := tr.toId p.charsets.length
    ({ p with charsets := CharsetMap.insert t id p.charsets }, id)

/-- `std::make_unique<leaf_node>(token_, greedy_)` pushed on `_tree_node_stack`
(e.g. parser.hpp:392-394). -/
def pushLeaf (tr : Traits) (p : PState) (token : Nat) (g : Greedy) : PState :=
  let (h, t) := p.heap.newLeaf tr.nullToken token g
  { p with heap := h, trees := t :: p.trees }

/-- parser.hpp:777-788 `sequence`. -/
def sequence (p : PState) : M PState :=
  match p.trees with
  | rhs :: lhs :: ts => do
    let (h, t) ← p.heap.newSeq lhs rhs
    .ok { p with heap := h, trees := t :: ts }
  | _ => .error (.ub "empty _tree_node_stack")

/-- parser.hpp:328-340 `perform_or`. -/
def performOr (p : PState) : M PState :=
  match p.trees with
  | rhs :: lhs :: ts => .ok { p with trees := .sel lhs rhs :: ts }
  | _ => .error (.ub "empty _tree_node_stack")

/-- parser.hpp:790-811 `optional`. -/
def optional (tr : Traits) (p : PState) (g : Greedy) : M PState :=
  match p.trees with
  | lhs :: ts => do
    let h ← p.heap.setGreedyAll lhs.firstpos g
    let (h, rhs) := h.newLeaf tr.nullToken tr.nullToken g
    .ok { p with heap := h, trees := .sel lhs rhs :: ts }
  | _ => .error (.ub "empty _tree_node_stack")

/-- parser.hpp:813-821 `zero_or_more`. -/
def zeroOrMore (p : PState) (g : Greedy) : M PState :=
  match p.trees with
  | t :: ts => do
    let (h, t) ← p.heap.newIter t g
    .ok { p with heap := h, trees := t :: ts }
  | _ => .error (.ub "empty _tree_node_stack")

/-- parser.hpp:823-837 `one_or_more`. -/
def oneOrMore (tr : Traits) (p : PState) (g : Greedy) : M PState :=
  match p.trees with
  | lhs :: ts => do
    let (h, copy) ← p.heap.copy tr.nullToken lhs
    let (h, rhs) ← h.newIter copy g
    let (h, t) ← h.newSeq lhs rhs
    .ok { p with heap := h, trees := t :: ts }
  | _ => .error (.ub "empty _tree_node_stack")

/-- parser.hpp:853-858 and 864-869: a run of decimal digits.  (`size_t`
wrap-around is not modelled: it would need a count of more than 2^64 copies.) -/
def digits (acc : Nat) : List Nat → Nat × List Nat
  | [] => (acc, [])
  | c :: cs => if 48 ≤ c ∧ c ≤ 57 then digits (acc * 10 + (c - 48)) cs else (acc, c :: cs)

/-- parser.hpp:853-869: minimum, comma seen, maximum (0 if absent). -/
def counts (extra : List Nat) : Nat × Bool × Nat :=
  let (min, rest) := digits 0 extra
  match rest with
  | 44 :: rest => (min, true, (digits 0 rest).1)
  | rest => (min, false, (digits 0 rest).1)

/-- The step repeated at parser.hpp:886-889, 896-899 and 913-916: `prev_` is
copied to `curr_`, appended to the tree on top of the stack and replaced. -/
def appendCopy (tr : Traits) (p : PState) (prev : Tree) : M (PState × Tree) := do
  let (h, curr) ← p.heap.copy tr.nullToken prev
  let p ← { p with heap := h, trees := prev :: p.trees }.sequence
  .ok (p, curr)

/-- `appendCopy` `n` times (the `for` loops at parser.hpp:884-890, 911-917). -/
def appendCopies (tr : Traits) : Nat → PState → Tree → M (PState × Tree)
  | 0, p, prev => .ok (p, prev)
  | n + 1, p, prev => do
    let (p, prev) ← p.appendCopy tr prev
    appendCopies tr n p prev

/-- `prev_` is pushed, an operator is applied to it and it is popped again
(parser.hpp:904-907, 921-924). -/
def onTop (p : PState) (prev : Tree) (op : PState → M PState) : M (PState × Tree) := do
  let p ← op { p with trees := prev :: p.trees }
  match p.trees with
  | prev :: ts => .ok ({ p with trees := ts }, prev)
  | [] => .error (.ub "empty _tree_node_stack")

/-- parser.hpp:892-926: the part of `repeatn` for `{n,}` and `{n,m}`. -/
def repeatTail (tr : Traits) (p : PState) (prev : Tree) (g : Greedy) (min : Nat) (comma : Bool)
    (max : Nat) : M (PState × Tree) :=
  if comma ∧ min > 0 then
    (if min > 1 then p.appendCopy tr prev else .ok (p, prev)) >>= fun (p, prev) =>
      if max ≠ 0 then
        p.onTop prev (fun p => p.optional tr g) >>= fun (p, prev) =>
          p.appendCopies tr (max - min - 1) prev
      else p.onTop prev (fun p => p.zeroOrMore g)
  else .ok (p, prev)

/-- parser.hpp:871-930: `repeatn` after the counts have been read. -/
def repeatCounts (tr : Traits) (p : PState) (g : Greedy) (min : Nat) (comma : Bool) (max : Nat) :
    M PState :=
  if min = 1 ∧ comma = false then .ok p
  else
    let top := if min > 0 then min else max
    (if min = 0 then p.optional tr g else .ok p) >>= fun p =>
      match p.trees with
      | [] => .error (.ub "empty _tree_node_stack")
      | t :: _ => do
        let (h, prev) ← p.heap.copy tr.nullToken t
        let (p, prev) ← appendCopies tr (top - 2) { p with heap := h } prev
        let (p, prev) ← p.repeatTail tr prev g min comma max
        { p with trees := prev :: p.trees }.sequence

/-- parser.hpp:845-931 `repeatn`. -/
def repeatN (tr : Traits) (p : PState) (g : Greedy) (extra : List Nat) : M PState :=
  let (min, comma, max) := counts extra
  p.repeatCounts tr g min comma max

end PState

/-- The columns `data_[0]`, `data_[1]` (and `data_[2]`) of `create_sequence`
(parser.hpp:462) as one list of rows; each row is one alternative. -/
abbrev Slices := List (List Token)

/-- parser.hpp:589-593, 628-635: the token of an unordered pair of bounds. -/
def orderedToken (a b : Nat) : Token := [if a > b then (b, a) else (a, b)]

/-- parser.hpp:598-620 `insert_range` (two columns): merge into the first row
with the same first column, else append. -/
def insertRow2 (t t2 : Token) : Slices → Slices
  | [] => [[t, t2]]
  | row :: rows =>
    match row with
    | [a, b] => if t == a then [a, Token.insertToken b t2] :: rows else row :: insertRow2 t t2 rows
    | _ => row :: insertRow2 t t2 rows

/-- parser.hpp:640-681 `insert_range` (three columns): merge into the first row
whose first two columns agree, else append. -/
def insertRow3 (t t2 t3 : Token) : Slices → Slices
  | [] => [[t, t2, t3]]
  | row :: rows =>
    match row with
    | [a, b, c] =>
      if t == a && b == t2 then [a, b, Token.insertToken c t3] :: rows
      else row :: insertRow3 t t2 t3 rows
    | _ => row :: insertRow3 t t2 t3 rows

/-- `static_cast<unsigned char>` of an `int` argument. -/
def toByte (n : Int) : Nat := (n % 256).toNat

/-- parser.hpp:482-513 `slice_range` (16 bit). -/
def slice16 (r : Range) (d : Slices) : Slices :=
  let fm := r.1 / 256 % 256
  let fl := r.1 % 256
  let sm := r.2 / 256 % 256
  let sl := r.2 % 256
  if fm = sm then insertRow2 (orderedToken fm fm) (orderedToken fl sl) d
  else
    let d := insertRow2 (orderedToken fm fm) (orderedToken fl 255) d
    let d := if sm > fm + 1 then
      insertRow2 (orderedToken (fm + 1) (sm - 1)) (orderedToken 0 255) d else d
    insertRow2 (orderedToken sm sm) (orderedToken 0 sl) d

/-- parser.hpp:516-582 `slice_range` (24 bit).  At 561 the code passes
`first_mid_ + 1, second_mid_ - 1` where the most significant bytes are meant. -/
def slice24 (r : Range) (d : Slices) : Slices :=
  let fh := r.1 / 65536 % 256
  let fm := r.1 / 256 % 256
  let fl := r.1 % 256
  let sh := r.2 / 65536 % 256
  let sm := r.2 / 256 % 256
  let sl := r.2 % 256
  if fh = sh then
    (slice16 r []).foldl (fun d row =>
      match row with
      | [a, b] => insertRow3 (orderedToken fh fh) a b d
      | _ => d) d
  else
    let d := insertRow3 (orderedToken fh fh) (orderedToken fm fm) (orderedToken fl 255) d
    let d := if fm ≠ 255 then
      insertRow3 (orderedToken fh fh) (orderedToken (fm + 1) 255) (orderedToken 0 255) d else d
    let d := if sh > fh + 1 then
      insertRow3 (orderedToken (toByte (fm + 1)) (toByte ((sm : Int) - 1))) (orderedToken 0 255)
        (orderedToken 0 255) d else d
    if sm ≠ 0 then
      let d := insertRow3 (orderedToken sh sh) (orderedToken 0 (sm - 1)) (orderedToken 0 255) d
      insertRow3 (orderedToken sh sh) (orderedToken sm sm) (orderedToken 0 sl) d
    else insertRow3 (orderedToken sh sh) (orderedToken 0 sm) (orderedToken 0 sl) d

/-- parser.hpp:464-468: all slices of a charset. -/
def sliceToken (char24 : Bool) (t : Token) : Slices :=
  t.foldl (fun d r => if char24 then slice24 r d else slice16 r d) []

namespace PState

/-- parser.hpp:730-737 `push_range`. -/
def pushRange (tr : Traits) (p : PState) (t : Token) : PState :=
  let (p, id) := p.lookup tr t
  p.pushLeaf tr id .yes

/-- parser.hpp:691-693, 697-699 and 713-717, 721-725: one row of slices becomes a
sequence of leaves. -/
def pushRow (tr : Traits) (p : PState) : List Token → M PState
  | [] => .error (.ub "slice")
  | t :: ts => ts.foldlM (fun p t => (p.pushRange tr t).sequence) (p.pushRange tr t)

/-- parser.hpp:684-728 `push_ranges`. -/
def pushRows (tr : Traits) (p : PState) : Slices → M PState
  | [] => .error (.ub "dereference of data_[0].cbegin() of an empty charset")
  | row :: rows => do
    rows.foldlM (fun p row => do (← p.pushRow tr row).performOr) (← p.pushRow tr row)

/-- parser.hpp:206-304 `reduce`, first part: pop the handle (first element of the
result is `rhs_`).  The `assert` at 227 is an undefined-behaviour outcome. -/
def popHandle : List Tok → List Tok → M (List Tok × List Tok)
  | _, [] => .error (.ub "top of empty _token_stack")
  | handle, rhs :: stack =>
    match stack with
    | [] => .ok (rhs :: handle, [])
    | lhs :: _ =>
      match prec lhs.type rhs.type with
      | .eq => popHandle (rhs :: handle) stack
      | .lt => .ok (rhs :: handle, stack)
      | _ => .error (.ub "assert(_token_stack.empty() || action_ == '<')")

/-- `std::make_unique<token>(type_)`. -/
def newTok (t : TT) : Tok := ⟨t, [], []⟩

/-- parser.hpp:229-303 `reduce`, second part, with 306-457 and 765-775: the new
state and the tokens pushed on `_token_stack` (top first).  Failing asserts are
undefined-behaviour outcomes. -/
def reduceHandle (tr : Traits) (p : PState) (handle : List Tok) : M (PState × List Tok) :=
  match handle with
  | [] => .error (.ub "empty handle")
  | rhs :: hs =>
    match rhs.type, (hs.map Tok.type : List TT) with
    | .begin, _ => .ok (p, [])
    | .regex, _ => .ok (p, [])
    | .orexp, [] => .ok (p, [newTok .regex])
    | .orexp, [.or_, .sequence] => do .ok (← p.performOr, [newTok .orexp])
    | .sequence, _ => .ok (p, [newTok .orexp])
    | .sub, [] => .ok (p, [newTok .sequence])
    | .sub, [.expression] => do .ok (← p.sequence, [newTok .sub])
    | .expression, _ => .ok (p, [newTok .sub])
    | .repeat_, [] => .ok (p, [newTok .expression])
    | .repeat_, .dup :: _ => .ok (p, [newTok .repeat_])
    | .bol, [] => .ok (p.pushLeaf tr tr.bolToken .yes, [newTok .repeat_])
    | .eol, [] =>
      let (p, cr) := p.lookup tr (Token.ofChar 13)
      let (p, nl) := p.lookup tr (Token.ofChar 10)
      let p := if cr ≠ tr.npos then { p with crId := cr } else p
      let p := if nl ≠ tr.npos then { p with nlId := nl } else p
      .ok (p.pushLeaf tr tr.eolToken .yes, [newTok .repeat_])
    | .charset, [] =>
      if tr.compressed then do
        let p ← p.pushRows tr (sliceToken tr.char24 rhs.str)
        .ok (p, [newTok .closeparen, newTok .regex, newTok .openparen])
      else .ok (p.pushRange tr rhs.str, [newTok .repeat_])
    | .openparen, [.regex, .closeparen] => .ok (p, [newTok .repeat_])
    | .opt, _ => do .ok (← p.optional tr .hard, [newTok .dup])
    | .aopt, _ => do .ok (← p.optional tr .no, [newTok .dup])
    | .zeroormore, _ => do .ok (← p.zeroOrMore .hard, [newTok .dup])
    | .azeroormore, _ => do .ok (← p.zeroOrMore .no, [newTok .dup])
    | .oneormore, _ => do .ok (← p.oneOrMore tr .hard, [newTok .dup])
    | .aoneormore, _ => do .ok (← p.oneOrMore tr .no, [newTok .dup])
    | .repeatn, _ => do .ok (← p.repeatN tr .hard rhs.extra, [newTok .dup])
    | .arepeatn, _ => do .ok (← p.repeatN tr .no rhs.extra, [newTok .dup])
    | .dup, _ | .or_, _ | .macro_, _ | .closeparen, _ | .end_, _ =>
      .error (.throw "Internal error in regex_parser::reduce.")
    | _, _ => .error (.ub "assert on the handle")

/-- parser.hpp:206-304 `reduce` on the parser state and `_token_stack`. -/
def reduce (tr : Traits) (p : PState) (toks : List Tok) : M (PState × List Tok) := do
  let (handle, stack) ← popHandle [] toks
  let (p, new) ← p.reduceHandle tr handle
  .ok (p, new ++ stack)

/-- parser.hpp:112-142, the parse loop.  `toks` is `_token_stack`, `rhs` is
`*rhs_token_`, `rest` the tokens from `iter_` on (`iter_` never moves past the last
token). -/
def parseLoop (tr : Traits) : Nat → PState → List Tok → Tok → List Tok → M PState
  | 0, _, _, _, _ => .error .fuel
  | fuel + 1, p, toks, rhs, rest =>
    match toks with
    | [] => .ok p
    | lhs :: _ =>
      match prec lhs.type rhs.type with
      | .lt | .eq =>
        match rest with
        | [] => .error (.ub "dereference of the end iterator")
        | [t] => parseLoop tr fuel p (rhs :: toks) t [t]
        | t :: ts => parseLoop tr fuel p (rhs :: toks) t ts
      | .gt => do
        let (p, toks) ← p.reduce tr toks
        parseLoop tr fuel p toks rhs rest
      | .err => .error (.throw "A syntax error occurred")

end PState

/-- Arguments of `parse` besides the tokens (parser.hpp:93-97). -/
structure RuleInfo where
  id : Nat
  userId : Nat
  uniqueId : Nat
  nextDfa : Nat
  pushDfa : Nat
  popDfa : Bool
  deriving DecidableEq, Repr

/-- parser.hpp:144-151 `non_greedy_`. -/
def nonGreedy (regex : List Tok) : Bool :=
  regex.any fun t => t.type == .aopt || t.type == .azeroormore || t.type == .aoneormore ||
    t.type == .arepeatn

namespace PState

/-- parser.hpp:153-171: append the end node. -/
def finish (p : PState) (info : RuleInfo) (g : Greedy) : M (PState × Tree) :=
  let e := Tree.fin p.heap.length
  let h := p.heap ++ [⟨.fin info.id info.userId info.uniqueId info.nextDfa info.pushDfa
    info.popDfa g, []⟩]
  match p.trees with
  | [] => .ok ({ p with heap := h }, e)
  | [lhs] => do
    let (h, root) ← h.newSeq lhs e
    .ok ({ p with heap := h, trees := [] }, root)
  | _ => .error (.ub "assert(_tree_node_stack.size() == 1)")

/-- parser.hpp:942-945: `!node_->end_state() && node_->token() == bol_token()`. -/
def isBolLeaf (tr : Traits) (h : Heap) (n : Nat) : Bool :=
  match h[n]? with
  | some ⟨.leaf token _, _⟩ => token == tr.bolToken
  | _ => false

/-- parser.hpp:933-966 `fixup_bol`. -/
def fixupBol (tr : Traits) (p : PState) (root : Tree) : M (PState × Tree) :=
  if root.firstpos.any (isBolLeaf tr p.heap) then .ok (p, root)
  else do
    let (h, lhs) := p.heap.newLeaf tr.nullToken tr.bolToken .yes
    let (h, rhs) := h.newLeaf tr.nullToken tr.nullToken .yes
    let (h, root) ← h.newSeq (.sel lhs rhs) root
    .ok ({ p with heap := h }, root)

/-- parser.hpp:93-179 `parse`. -/
def parse (tr : Traits) (p : PState) (regex : List Tok) (info : RuleInfo) (seenBol : Bool) :
    M (PState × Tree) :=
  match regex with
  | t0 :: t1 :: rest => do
    let p ← parseLoop tr (16 * regex.length + 16) p [t0] t1 (if rest = [] then [t1] else rest)
    let (p, root) ← p.finish info (if nonGreedy regex then .no else .yes)
    if seenBol then p.fixupBol tr root else .ok (p, root)
  | _ => .error (.ub "fewer than two tokens")

end PState
end Lexertl

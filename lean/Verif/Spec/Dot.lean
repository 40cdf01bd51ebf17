import Verif.Model.Dot
import Verif.Spec.Dump

/-
Text in the DOT language as tokens, and the graph of a char state machine.
-/
namespace Lexertl.Spec

/-- A token of the DOT language: a name, a string in quotes, an HTML string (without the outer `<` and `>`), a punctuation
character; or a string whose end is missing. -/
inductive DotTok
  | word (w : List Nat)
  | str (s : List Nat)
  | html (s : List Nat)
  | sign (c : Nat)
  | unfinished
  deriving DecidableEq, Repr

/-- Where the reader is: in a name or between tokens, in a string, or in an HTML string with so many `<` open. -/
inductive DotMode
  | out (w : List Nat)
  | str (s : List Nat)
  | html (depth : Nat) (s : List Nat)
  deriving DecidableEq, Repr

def dotWordChar (c : Nat) : Bool := (48 ≤ c && c ≤ 57) || (65 ≤ c && c ≤ 90) || (97 ≤ c && c ≤ 122) || c == 95

def dotWord (w : List Nat) : List DotTok := if w = [] then [] else [.word w]

/-- The tokens of a text.  An HTML string starts with a `<` and ends where its `<` and `>` are balanced; elsewhere a `>` is
punctuation (as in `->`). -/
def dotTokens : DotMode → List Nat → List DotTok
  | .out w, [] => dotWord w
  | .str _, [] => [.unfinished]
  | .html _ _, [] => [.unfinished]
  | .out w, c :: cs =>
    if dotWordChar c then dotTokens (.out (w ++ [c])) cs
    else dotWord w ++
      (if c = 34 then dotTokens (.str []) cs
      else if c = 60 then dotTokens (.html 1 []) cs
      else if c = 32 ∨ c = 10 then dotTokens (.out []) cs
      else .sign c :: dotTokens (.out []) cs)
  | .str s, c :: cs => if c = 34 then .str s :: dotTokens (.out []) cs else dotTokens (.str (s ++ [c])) cs
  | .html d s, c :: cs =>
    if c = 60 then dotTokens (.html (d + 1) (s ++ [c])) cs
    else if c = 62 then
      if d = 1 then .html s :: dotTokens (.out []) cs else dotTokens (.html (d - 1) (s ++ [c])) cs
    else dotTokens (.html d (s ++ [c])) cs

/-- A name given as a string. -/
def dw (s : String) : DotTok := .word (chars s)

/-- The node of a state of a lexer state. -/
def nodeId (dfa state : Nat) : List Nat := chars "L" ++ numText 10 dfa ++ chars "_S" ++ numText 10 state

/-- `NODE [shape = S];` or `NODE [shape = S, xlabel = "..."];` -/
def nodeStmt (node : List Nat) (shape : String) (xlabel : Option (List Nat)) : List DotTok :=
  [.word node, .sign 91, dw "shape", .sign 61, dw shape] ++
  (match xlabel with
    | some l => [.sign 44, dw "xlabel", .sign 61, .str l]
    | none => []) ++
  [.sign 93, .sign 59]

/-- `FROM -> TO [ATTR = VALUE];` -/
def edgeStmt (src dst : List Nat) (attr : String) (value : DotTok) : List DotTok :=
  [.word src, .sign 45, .sign 62, .word dst, .sign 91, dw attr, .sign 61, value, .sign 93, .sign 59]

/-- The nodes of a lexer state: one for each state, with the name of the lexer state at the start state, and with a double circle
and the id at the other end states. -/
def nodeStmts (dfa : Nat) (label : List Nat) (states : List CState) : List DotTok :=
  (states.mapIdx fun i s =>
    if i = 0 then nodeStmt (nodeId dfa i) "circle" (some label)
    else if s.endState then nodeStmt (nodeId dfa i) "doublecircle" (some (chars "id = " ++ numText 10 s.id))
    else nodeStmt (nodeId dfa i) "circle" none).flatten

/-- The label of a transition: a table with one cell. -/
def labelHtml (text : List Nat) : List Nat :=
  chars "<TABLE BORDER=\"0\" CELLBORDER=\"0\"><TR><TD>" ++ text ++ chars "</TD></TR></TABLE>"

/-- The edges of a lexer state: one for each transition, and, if there are several lexer states, a dashed one from each end state
to the start state of the next lexer state. -/
def edgeStmts (text : Token → List Nat) (dfas dfa : Nat) (states : List CState) : List DotTok :=
  (states.mapIdx fun i s =>
    (s.transitions.map fun p => edgeStmt (nodeId dfa i) (nodeId dfa p.1) "label" (.html (labelHtml (text p.2)))).flatten ++
    (if dfas > 1 ∧ s.endState = true then edgeStmt (nodeId dfa i) (nodeId s.nextDfa 0) "style" (.str (chars "dashed")) else [])).flatten

/-- The graph. -/
def graph (text : Token → List Nat) (name : Nat → List Nat) (m : List CDfa) : List DotTok :=
  [dw "digraph", dw "DFAs", .sign 123, dw "rankdir", .sign 61, dw "LR", .sign 59] ++
  (m.mapIdx fun i d => nodeStmts i (name i) d.states ++ edgeStmts text m.length i d.states).flatten ++ [.sign 125]

/-- The characters `<`, `>` and `&` need not be written: they are not ends of the ranges listed for the charset. -/
def NoMarkup (max : Nat) (t : List (Nat × Nat)) : Prop :=
  ∀ u, Lists max t u → ∀ r ∈ u, r.1 ∉ [38, 60, 62] ∧ r.2 ∉ [38, 60, 62]

/-- The text for a range of characters that stand for themselves. -/
def rangeText (r : Nat × Nat) : List Nat :=
  if r.1 = r.2 then [r.1] else if r.1 + 1 = r.2 then [r.1, r.2] else [r.1, 45, r.2]

/-- Characters that stand for themselves in a label. -/
def PlainInLabel (c : Nat) : Prop := 32 ≤ c ∧ c ≤ 126 ∧ c ∉ [34, 39, 92, 93, 94]

end Lexertl.Spec

import Verif.Model.Debug

/-
Model of `dot.hpp`: the description of a char state machine in the DOT language.  The stream is the list of the characters written
to it; `std::endl` is the character 10.  Only `char` is modelled: for other character types `dump_ex` does not compile (181: the
name of a lexer state is taken to be a `const char*`).
-/
namespace Lexertl

/-- dot.hpp:67-78 `node_name`. -/
def dotName (dfa state : Nat) : List Nat := [76] ++ numText 10 dfa ++ chars "_S" ++ numText 10 state

/-- dot.hpp:80-162 `double_escape_char`. -/
def dotEscape (c : Nat) : List Nat :=
  if c = 0 then [92, 92, 48]
  else if c = 7 then [92, 92, 97]
  else if c = 8 then [92, 92, 98]
  else if c = 12 then [92, 92, 102]
  else if c = 10 then [92, 92, 110]
  else if c = 13 then [92, 92, 114]
  else if c = 9 then [92, 92, 116]
  else if c = 11 then [92, 92, 118]
  else if c = 92 then [92, 92]
  else if c = 34 then [92, 92, 34]
  else if c = 39 then [92, 92, 39]
  else if c < 32 ∨ c > 126 then 92 :: 120 :: numText 16 c
  else [c]

/-- dot.hpp:247-279 `dump_ranges`: one round of the loop.  `chars_` is written at its end (277), after both backslashes. -/
def dotRange (r : Range) : List Nat :=
  (if r.1 = 94 ∨ r.1 = 93 then [92, 92] else []) ++
  (if r.1 ≠ r.2 ∧ (r.2 = 94 ∨ r.2 = 93) then [92, 92] else []) ++
  dotEscape r.1 ++
  (if r.1 ≠ r.2 then (if r.1 + 1 < r.2 then [45] else []) ++ dotEscape r.2 else [])

/-- dot.hpp:224-235: the label of a transition; `max` is `char_traits::max_val()`. -/
def dotLabel (max : Nat) (t : Token) : List Nat :=
  let negated := !Token.any max t && Token.negatable max t
  [91] ++ (if negated then [94] else []) ++ (if negated then Token.negate max t else t).flatMap dotRange ++ [93]

/-- dot.hpp:174-205: the node of state `i` of lexer state `dfa`, whose name is `label`. -/
def dotNode (dfa : Nat) (label : List Nat) (i : Nat) (s : CState) : List Nat :=
  chars "    " ++ dotName dfa i ++
  (if i = 0 then chars " [shape = circle, xlabel=\"" ++ label ++ chars "\"];\n"
  else if s.endState then chars " [shape = doublecircle, xlabel=\"id = " ++ numText 10 s.id ++ chars "\"];\n"
  else chars " [shape = circle];\n")

/-- dot.hpp:217-237: the edge of a transition. -/
def dotEdge (max dfa i : Nat) (p : Nat × Token) : List Nat :=
  chars "    " ++ dotName dfa i ++ chars " -> " ++ dotName dfa p.1 ++
  chars " [label = <<TABLE BORDER=\"0\" CELLBORDER=\"0\"><TR><TD>" ++ dotLabel max p.2 ++ chars "</TD></TR></TABLE>>];\n"

/-- dot.hpp:209-244: the edges that leave state `i`; `dfas` is the number of lexer states. -/
def dotEdges (max dfas dfa i : Nat) (s : CState) : List Nat :=
  s.transitions.flatMap (dotEdge max dfa i) ++
  (if dfas > 1 ∧ s.endState = true then
    chars "    " ++ dotName dfa i ++ chars " -> " ++ dotName s.nextDfa 0 ++ chars " [style = \"dashed\"];\n"
  else [])

/-- dot.hpp:164-245 `dump_ex`.  A loop index is an `id_type`, so the model is right for at most `npos` states. -/
def dotDfa (max dfas dfa : Nat) (label : List Nat) (d : CDfa) : List Nat :=
  [10] ++ (d.states.mapIdx fun i s => dotNode dfa label i s).flatten ++
  [10] ++ (d.states.mapIdx fun i s => dotEdges max dfas dfa i s).flatten

/-- dot.hpp:181-191: what is written for a lexer state: its name, or its number if it has none. -/
def dotStateLabel (tr : Traits) (o : RulesObj) (i : Nat) : List Nat :=
  match o.stateName tr (tr.toId i) with
  | some name => name
  | none => numText 10 i

/-- dot.hpp:48-60, 281-290 `dump` of a char state machine. -/
def dotCsm (max : Nat) (tr : Traits) (o : RulesObj) (m : List CDfa) : List Nat :=
  chars "digraph DFAs {\n    rankdir = LR;\n" ++
  (m.mapIdx fun i d => dotDfa max m.length i (dotStateLabel tr o i) d).flatten ++ chars "}\n"

/-- dot.hpp:38-46 `dump` of a state machine. -/
def dotSm (max : Nat) (tr : Traits) (o : RulesObj) (sm : Internals) : M (List Nat) := do
  let m ← smToCsm tr.npos sm
  .ok (dotCsm max tr o m)

end Lexertl

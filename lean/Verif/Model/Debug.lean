import Verif.Model.Csm
import Verif.Model.Rules

/-
Model of `debug.hpp`: `dump` of a char state machine, and string_token.hpp:403-480
`escape_char`.  The stream is the list of the characters written to it; `std::endl` is the
character 10.

`dump(rules&, ostream&)` (37-148) is not modelled: it does not compile, because
`insert_macros` (267-269, 287-289) calls `std::search` on tokens and `basic_re_token` has no
`operator ==`.
-/
namespace Lexertl

/-- stream_num.hpp:15-43: the digits of `n`, the last one first; `fuel` is more than their
number. -/
def numRev (base : Nat) : Nat → Nat → List Nat
  | 0, _ => []
  | fuel + 1, n =>
    let d := n % base
    (if d < 10 then 48 + d else 87 + d) :: if n < base then [] else numRev base fuel (n / base)

/-- stream_num.hpp:15-43 `stream_num`, with `std::hex` (`base` 16) or without it. -/
def numText (base n : Nat) : List Nat := (numRev base (n + 1) n).reverse

/-- string_token.hpp:403-480 `escape_char`.  `base` is 16 for `char` and `wchar_t`.  It is 10
for `char32_t`: stream_num.hpp:30-42 writes to a stream of its own, without `std::hex`. -/
def escapeChar (base c : Nat) : List Nat :=
  if c = 0 then [92, 48]
  else if c = 7 then [92, 97]
  else if c = 8 then [92, 98]
  else if c = 27 then [92, 120, 49, 98]
  else if c = 12 then [92, 102]
  else if c = 10 then [92, 110]
  else if c = 13 then [92, 114]
  else if c = 9 then [92, 116]
  else if c = 11 then [92, 118]
  else if c = 92 then [92, 92]
  else if c = 34 then [92, 34]
  else if c = 39 then [92, 39]
  else if c < 32 ∨ c > 126 then 92 :: 120 :: numText base c
  else [c]

/-- debug.hpp:489-520: one round of the loop over the ranges.  `chars_` is written at its
end (519), after both backslashes. -/
def dumpRange (base : Nat) (r : Range) : List Nat :=
  (if r.1 = 45 ∨ r.1 = 94 ∨ (r.1 = 93 ∧ r.1 ≠ r.2) then [92] else []) ++
  (if r.1 ≠ r.2 ∧ (r.2 = 45 ∨ r.2 = 94 ∨ r.2 = 93) then [92] else []) ++
  escapeChar base r.1 ++
  (if r.1 ≠ r.2 then (if r.1 + 1 < r.2 then [45] else []) ++ escapeChar base r.2 else [])

/-- debug.hpp:461-472: the characters that get a backslash if they stand alone. -/
def dumpMeta : List Nat := [124, 40, 41, 63, 42, 43, 123, 125, 91, 93, 46, 47]

/-- debug.hpp:444-527 `dump_charset`; `max` is `char_traits::max_val()`. -/
def dumpCharset (max base : Nat) (t : Token) : M (List Nat) :=
  match t with
  | [] => .error (.ub "front() of an empty vector")
  | r :: rs =>
    let opening := if rs ≠ [] ∨ r.1 ≠ r.2 then [91] else if r.1 ∈ dumpMeta then [92] else []
    let negated := !Token.any max t && Token.negatable max t
    let token := if negated then Token.negate max t else t
    let text := opening ++ (if negated then [94] else []) ++ token.flatMap (dumpRange base)
    match token with
    | [] => if negated then .ok (text ++ [93]) else .error (.ub "front() of an empty vector")
    | q :: qs => if qs ≠ [] ∨ negated ∨ q.1 ≠ q.2 then .ok (text ++ [93]) else .ok text

/-- debug.hpp:372-380 `dump_transition`, and the loop in 365-366. -/
def dumpTransitions (max base : Nat) : List (Nat × Token) → M (List Nat)
  | [] => .ok []
  | (k, t) :: m => do
    let s ← dumpCharset max base t
    let rest ← dumpTransitions max base m
    .ok (chars "  " ++ s ++ chars " -> " ++ numText 10 k ++ [10] ++ rest)

/-- debug.hpp:323-348: the line of an end state.  (The number after PUSH is streamed as
`id_type`; this is a number for all unsigned types but `unsigned char`.) -/
def dumpEnd (s : CState) : List Nat :=
  if s.endState then
    chars "  END STATE" ++
    (match s.pushPop with
      | .push => chars ", PUSH " ++ numText 10 s.pushDfa
      | .pop => chars ", POP"
      | .neither => []) ++
    chars ", Id = " ++ numText 10 s.id ++ chars ", User Id = " ++ numText 10 s.userId ++
    chars ", dfa = " ++ numText 10 s.nextDfa ++ [10]
  else []

/-- debug.hpp:315-369: the loop of `dump_ex`, from state `i` on. -/
def dumpStates (max base npos bol : Nat) : Nat → List CState → M (List Nat)
  | _, [] => .ok []
  | i, s :: ss => do
    let trans ← dumpTransitions max base s.transitions
    let rest ← dumpStates max base npos bol (i + 1) ss
    .ok (chars "State: " ++ numText 10 i ++ [10] ++ dumpEnd s ++
      (if i = 0 ∧ bol ≠ npos then chars "  BOL -> " ++ numText 10 bol ++ [10] else []) ++
      (if s.eolIndex ≠ npos then chars "  EOL -> " ++ numText 10 s.eolIndex ++ [10] else []) ++
      trans ++ [10] ++ rest)

/-- debug.hpp:166-191: the two `dump`s of a char state machine; from lexer state `i` on.
`name` is what is written for a lexer state: its number, or its name. -/
def dumpDfas (max base npos : Nat) (name : Nat → M (List Nat)) : Nat → List CDfa → M (List Nat)
  | _, [] => .ok []
  | i, d :: ds => do
    let n ← name i
    let states ← dumpStates max base npos d.bol 0 d.states
    let rest ← dumpDfas max base npos name (i + 1) ds
    .ok (chars "Lexer state: " ++ n ++ [10, 10] ++ states ++ rest)

/-- debug.hpp:180-191 `dump(csm_, stream_)`. -/
def dumpCsm (max base npos : Nat) (m : List CDfa) : M (List Nat) :=
  dumpDfas max base npos (fun i => .ok (numText 10 i)) 0 m

/-- debug.hpp:166-178 `dump(csm_, rules_, stream_)`.  rules.hpp:160-179 `state` returns a null
pointer if there is no such lexer state. -/
def dumpCsmNames (max base : Nat) (tr : Traits) (o : RulesObj) (m : List CDfa) : M (List Nat) :=
  dumpDfas max base tr.npos (fun i =>
    match o.stateName tr (tr.toId i) with
    | some name => .ok name
    | none => .error (.ub "null pointer written to a stream")) 0 m

/-- debug.hpp:158-164 `dump(sm_, stream_)`. -/
def dumpSm (max base npos : Nat) (sm : Internals) : M (List Nat) := do
  let m ← smToCsm npos sm
  dumpCsm max base npos m

end Lexertl

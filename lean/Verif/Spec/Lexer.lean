import Verif.Spec.Lex
import Verif.Model.Lookup

/-
What one call of `lookup` does, in terms of the regular expressions of the rules
(no tables): longest match, skip, continue, change of lexer state and the stack.
Only the record types `Rule`, `Flags` and `Results` are shared with the model.
-/
namespace Lexertl.Spec

/-- A rule and the expression its regex denotes. -/
abbrev SRule := Rule × Option Re

/-- What is fixed while lexing: rules per lexer state, numbers `npos`, `eoi`, flags,
input. -/
structure LexEnv where
  rules : List (List SRule)
  npos : Nat
  eoi : Nat
  flags : Flags
  inp : List Nat

namespace LexEnv

/-- The position is known to be at the start of a line. -/
def atLine (E : LexEnv) (r : Results) : Bool := E.flags.bol && r.bol

/-- Accepting rule `x` with text ending at `k`: the result object afterwards, before
`id` and `user_id` are set.  `next`: the lexer state to go on with; `b`: a line starts
at `k`.  A popping rule goes back to the state on top of the stack. -/
def accept (E : LexEnv) (x : Rule) (r : Results) (k next : Nat) (b : Bool) : M Results :=
  if E.flags.recursive = true ∧ x.popDfa = true then
    match r.stack with
    | [] => .error (.throw "Stack underflow in lookup_state::pop().")
    | e :: st => .ok { r with
        second := k, stack := st, bol := if E.flags.bol then b else r.bol
        state := if E.flags.multiState then e.1 else r.state }
  else .ok { r with
    second := k, bol := if E.flags.bol then b else r.bol
    stack := if E.flags.recursive = true ∧ x.pushDfa ≠ E.npos then (x.pushDfa, x.id) :: r.stack
      else r.stack
    state := if E.flags.multiState then next else r.state }

/-- Rule `x` continues the token: its id is that of the end of input, or it popped and
the entry now on top of the stack was pushed by such a rule. -/
def continues (E : LexEnv) (x : Rule) (r' : Results) : Prop :=
  x.id = E.eoi ∨ (E.flags.recursive = true ∧ x.popDfa = true ∧ ∃ e st, r'.stack = e :: st ∧ e.2 = E.eoi)

/-- Rule `x` is chosen at position `p`: `k` is the end of its text, `next` the
following lexer state and `b` tells whether a line starts at `k`. -/
inductive Chosen (E : LexEnv) (r : Results) (p : Nat) : SRule → Nat → Nat → Bool → Prop
  | text (xs : List SRule) (x : SRule) (k j : Nat) : E.rules[r.state]? = some xs → xs[j]? = some x →
      Best (LineMatch (E.atLine r)) (xs.map (·.2)) E.inp p r.eoi k j →
      Chosen E r p x k x.1.nextDfa (E.inp[k - 1]? == some 10)
  | empty (xs : List SRule) (x : SRule) (j : Nat) : E.rules[r.state]? = some xs → xs[j]? = some x →
      NoMatch (LineMatch (E.atLine r)) (xs.map (·.2)) E.inp p r.eoi → FirstEmpty (xs.map (·.2)) j →
      Chosen E r p x p r.state r.bol

/-- `Lex r p o`: from position `p` on, with the token started at `r.first`, the outcome
of the call is `o`. -/
inductive Lex (E : LexEnv) : Results → Nat → M Results → Prop
  | eoi (r : Results) : Lex E r r.eoi (.ok { r with id := E.eoi, userId := E.npos })
  | none (r : Results) (p : Nat) (xs : List SRule) (c : Nat) : p < r.eoi → E.rules[r.state]? = some xs →
      NoMatch (LineMatch (E.atLine r)) (xs.map (·.2)) E.inp p r.eoi → NoEmpty (xs.map (·.2)) →
      E.inp[p]? = some c →
      Lex E r p (.ok { r with first := p, second := if E.flags.advance then p + 1 else p,
                              bol := c == 10, id := E.npos, userId := E.npos })
  | throw (r : Results) (p : Nat) (x : SRule) (k next : Nat) (b : Bool) (e : Fault) : p < r.eoi →
      Chosen E r p x k next b → E.accept x.1 r k next b = .error e → Lex E r p (.error e)
  | skip (r r' : Results) (p : Nat) (x : SRule) (k next : Nat) (b : Bool) (o : M Results) : p < r.eoi →
      Chosen E r p x k next b → E.accept x.1 r k next b = .ok r' → x.1.id = E.npos - 1 →
      Lex E { r' with first := k } k o → Lex E r p o
  | again (r r' : Results) (p : Nat) (x : SRule) (k next : Nat) (b : Bool) (o : M Results) : p < r.eoi →
      Chosen E r p x k next b → E.accept x.1 r k next b = .ok r' → x.1.id ≠ E.npos - 1 →
      E.continues x.1 r' → Lex E r' k o → Lex E r p o
  | token (r r' : Results) (p : Nat) (x : SRule) (k next : Nat) (b : Bool) : p < r.eoi →
      Chosen E r p x k next b → E.accept x.1 r k next b = .ok r' → x.1.id ≠ E.npos - 1 →
      ¬ E.continues x.1 r' → Lex E r p (.ok { r' with id := x.1.id, userId := x.1.userId })

end LexEnv

/-- Lexer states named by the rules exist (a rule that pops, in a recursive lexer, names
none: its next state is `npos`, rules.hpp:1101-1102). -/
structure StatesExist (E : LexEnv) : Prop where
  next : ∀ xs ∈ E.rules, ∀ x ∈ xs, (E.flags.recursive = true ∧ x.1.popDfa = true) ∨ x.1.nextDfa < E.rules.length
  push : ∀ xs ∈ E.rules, ∀ x ∈ xs, x.1.pushDfa ≠ E.npos → x.1.pushDfa < E.rules.length

/-- A result object that refers to existing lexer states and lies inside the input. -/
structure ROk (E : LexEnv) (r : Results) : Prop where
  state : r.state < E.rules.length
  stack : ∀ e ∈ r.stack, e.1 < E.rules.length
  eoi : r.eoi ≤ E.inp.length

/-- The rule list `R` passed to the generator, `xss` being its rules, per lexer state,
with the expressions their token sequences denote.  All charsets are over the characters
of the machine; `$` and non-greedy operators are not used; `^` is used only where nothing
precedes it, and only in states with feature bit 1 (which `push` sets).  The number of
byte charsets fits `id_type`. -/
structure RuleSet (tr : Traits) (R : Rules) (xss : List (List SRule)) : Prop where
  states : R.states = xss.map (·.map (·.1))
  den : ∀ xs ∈ xss, ∀ x ∈ xs, Denotes x.1.regex x.2
  sets : ∀ xs ∈ xss, ∀ x ∈ xs, CharSets tr x.2
  bolHead : ∀ xs ∈ xss, ∀ x ∈ xs, ROpt (fun r => r.bolHead = true) x.2
  noEol : ∀ xs ∈ xss, ∀ x ∈ xs, NoEol x.2
  greedy : ∀ xs ∈ xss, ∀ x ∈ xs, AllGreedy x.2
  count : ∀ xs ∈ xss, (xs.map fun x => setsOf tr x.2).sum + 2 ≤ tr.npos
  bolBit : ∀ (i : Nat) (xs : List SRule), xss[i]? = some xs → (∃ x ∈ xs, ¬ NoBol x.2) →
    ∃ n, R.features[i]? = some n ∧ n % 2 = 1

end Lexertl.Spec

namespace Lexertl.Spec

/-- `sm` was built from the rule list `R` (with the expressions `xss`), and is used with
flags `f` on the characters `inp`. -/
structure BuiltFor (tr : Traits) (R : Rules) (xss : List (List SRule)) (f : Flags) (inp : List Nat)
    (sm : Internals) : Prop where
  wide : 263 ≤ tr.npos
  rules : RuleSet tr R xss
  states : StatesExist ⟨xss, tr.npos, R.eoi, f, inp⟩
  built : ∃ addr, buildTemp tr addr R = .ok sm
  chars : ∀ c ∈ inp, c < charsOf tr

/-- What an accepted match does to the stack of lexer states. -/
inductive Ev
  | push (e : Nat × Nat)
  | pop
  | keep
  deriving DecidableEq, Repr

/-- The effect of rule `x`. -/
def LexEnv.effect (E : LexEnv) (x : Rule) : Ev :=
  if E.flags.recursive = true ∧ x.popDfa = true then .pop
  else if E.flags.recursive = true ∧ x.pushDfa ≠ E.npos then .push (x.pushDfa, x.id)
  else .keep

/-- A sequence of accepted matches with their effects, from one result object to
another.  Only lexer state and stack are followed; each match may be at any position. -/
inductive Steps (E : LexEnv) : Results → List Ev → Results → Prop
  | nil (r r' : Results) : r'.state = r.state → r'.stack = r.stack → Steps E r [] r'
  | step (r r0 r1 r' : Results) (p : Nat) (x : SRule) (k next : Nat) (b : Bool) (evs : List Ev) :
      r0.state = r.state → r0.stack = r.stack →
      E.Chosen r0 p x k next b → E.accept x.1 r0 k next b = .ok r1 →
      Steps E r1 evs r' → Steps E r (E.effect x.1 :: evs) r'

/-- Stack after a sequence of effects (`none`: a pop found it empty). -/
def stackAfter : List Ev → List (Nat × Nat) → Option (List (Nat × Nat))
  | [], st => some st
  | .push e :: evs, st => stackAfter evs (e :: st)
  | .pop :: _, [] => none
  | .pop :: evs, _ :: st => stackAfter evs st
  | .keep :: evs, st => stackAfter evs st

/-- Well bracketed sequences. -/
inductive Balanced : List Ev → Prop
  | nil : Balanced []
  | keep (l : List Ev) : Balanced l → Balanced (.keep :: l)
  | pair (e : Nat × Nat) (a b : List Ev) : Balanced a → Balanced b →
      Balanced (.push e :: (a ++ .pop :: b))

end Lexertl.Spec

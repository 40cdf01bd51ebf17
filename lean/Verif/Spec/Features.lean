import Verif.Model.GenCpp
import Verif.Spec.Table
import Verif.Spec.Rules

/-
When the feature bits of a state machine say what its tables contain, and which flags of
a result object cover them.
-/
namespace Lexertl.Spec

/-- Whatever occurs in the tables is recorded in the feature bits: the id `skip()`, the id
of the end of input, start rows for line starts, end of line rows, and pushing and popping
of lexer states. -/
structure FeaturesSay (npos : Nat) (sm : Internals) : Prop where
  skip : hasBit sm.features 4 = false → ∀ rows ∈ sm.dfa, ∀ row ∈ rows.drop 1, row[ixEnd]? ≠ some 0 →
    row[ixId]? ≠ some (npos - 1)
  again : hasBit sm.features 8 = false → ∀ rows ∈ sm.dfa, ∀ row ∈ rows.drop 1, row[ixEnd]? ≠ some 0 →
    row[ixId]? ≠ some sm.eoi
  bol : hasBit sm.features 1 = false → ∀ rows ∈ sm.dfa, ∀ row, rows[0]? = some row → row[0]? = some 0
  eol : hasBit sm.features 2 = false → ∀ rows ∈ sm.dfa, ∀ row ∈ rows.drop 1, row[ixEol]? = some 0
  stack : hasBit sm.features 32 = false → ∀ rows ∈ sm.dfa, ∀ row ∈ rows.drop 1, ∀ e, row[ixEnd]? = some e → e ≠ 0 →
    hasBit e bitPop = false ∧ row[ixPushDfa]? = some npos

/-- The flags of the result object contain the features of the machine: the assertion at
lookup.hpp:485 and 499.  (`skip` and `again` are not tested by `lookup`; the number of lexer
states decides whether `multi_state` is needed.) -/
structure Covers (f : Flags) (sm : Internals) : Prop where
  bol : hasBit sm.features 1 = true → f.bol = true
  eol : hasBit sm.features 2 = true → f.eol = true
  stack : hasBit sm.features 32 = true → f.recursive = true
  states : 1 < sm.dfa.length → f.multiState = true

/-- Equal results; the flag for the beginning of a line is compared only if `bol`. -/
structure SameResults (bol : Bool) (a b : Results) : Prop where
  id : b.id = a.id
  userId : b.userId = a.userId
  first : b.first = a.first
  second : b.second = a.second
  eoi : b.eoi = a.eoi
  bol : bol = true → b.bol = a.bol
  state : b.state = a.state
  stack : b.stack = a.stack

/-- Equal outcomes of two calls. -/
def SameOutcome (bol : Bool) : M Results → M Results → Prop
  | .ok a, .ok b => SameResults bol a b
  | .error e, .error e' => e = e'
  | _, _ => False

/-- Two sequences of equal results. -/
inductive SameTokens (bol : Bool) : List Results → List Results → Prop
  | nil : SameTokens bol [] []
  | cons {a b : Results} {as bs : List Results} : SameResults bol a b → SameTokens bol as bs → SameTokens bol (a :: as) (b :: bs)

/-- No stack entry was pushed by a rule with the id of the end of input, unless the features
say that there are such rules.  (Empty stacks, and what calls make of them.) -/
def StackFits (sm : Internals) (stack : List (Nat × Nat)) : Prop :=
  hasBit sm.features 8 = false → ∀ e ∈ stack, e.2 ≠ sm.eoi

/-- Every table has a row to start from at the beginning of a line. -/
def AllStartLines (sm : Internals) : Prop :=
  ∀ rows ∈ sm.dfa, ∀ row, rows[0]? = some row → row[0]? ≠ some 0

/-- Successive calls of the generated function on one result object, with the results after
each call. -/
inductive GenCalls (g : GenCode) (npos bytes : Nat) (inp : List Nat) : Results → List Results → Prop
  | nil (r : Results) : GenCalls g npos bytes inp r []
  | cons (r r' : Results) (rs : List Results) : g.Returns npos bytes inp r (.ok r') → GenCalls g npos bytes inp r' rs →
      GenCalls g npos bytes inp r (r' :: rs)

/-- What the rules of a lexer state need is recorded in its feature bits. -/
structure Recorded (npos : Nat) (R : Rules) : Prop where
  len : R.features.length = R.states.length
  bol : ∀ (i : Nat) rs f, R.states[i]? = some rs → R.features[i]? = some f → ∀ r ∈ rs, Rule.Has r (· = .bol) → hasBit f 1 = true
  eol : ∀ (i : Nat) rs f, R.states[i]? = some rs → R.features[i]? = some f → ∀ r ∈ rs, Rule.Has r (· = .eol) → hasBit f 2 = true
  skip : ∀ (i : Nat) rs f, R.states[i]? = some rs → R.features[i]? = some f → ∀ r ∈ rs, r.id = npos - 1 → hasBit f 4 = true
  again : ∀ (i : Nat) rs f, R.states[i]? = some rs → R.features[i]? = some f → ∀ r ∈ rs, r.id = R.eoi → hasBit f 8 = true
  stack : ∀ (i : Nat) rs f, R.states[i]? = some rs → R.features[i]? = some f → ∀ r ∈ rs, r.popDfa = true ∨ r.pushDfa ≠ npos →
    hasBit f 32 = true

/-- The feature bits of a lexer state record nothing else: each is there because of some rule,
and the bit for several lexer states is left to the machine. -/
structure OnlyRecorded (npos : Nat) (R : Rules) : Prop where
  bol : ∀ (i : Nat) rs f, R.states[i]? = some rs → R.features[i]? = some f → hasBit f 1 = true → ∃ r ∈ rs, Rule.Has r (· = .bol)
  eol : ∀ (i : Nat) rs f, R.states[i]? = some rs → R.features[i]? = some f → hasBit f 2 = true → ∃ r ∈ rs, Rule.Has r (· = .eol)
  skip : ∀ (i : Nat) rs f, R.states[i]? = some rs → R.features[i]? = some f → hasBit f 4 = true → ∃ r ∈ rs, r.id = npos - 1
  again : ∀ (i : Nat) rs f, R.states[i]? = some rs → R.features[i]? = some f → hasBit f 8 = true → ∃ r ∈ rs, r.id = R.eoi
  stack : ∀ (i : Nat) rs f, R.states[i]? = some rs → R.features[i]? = some f → hasBit f 32 = true →
    ∃ r ∈ rs, r.popDfa = true ∨ r.pushDfa ≠ npos
  few : ∀ f ∈ R.features, f < 64 ∧ hasBit f 16 = false

/-- No lexer state has both a rule with `^` and a rule with a non-greedy operator that is left
after normalisation. -/
def NoBolWithLazy (o : RulesObj) : Prop :=
  ∀ rs ∈ o.states, (∀ r ∈ rs, ¬ Rule.Has r (· = .bol)) ∨ (∀ r ∈ rs, ¬ Rule.Has r (fun t => isLazy t = true))

end Lexertl.Spec

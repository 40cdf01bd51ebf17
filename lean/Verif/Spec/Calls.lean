import Verif.Model.Lookup

/-
Vocabulary for sequences of calls of `lookup` on one result object, for an arbitrary
state machine: what a single match attempt takes, runs of matches, successive calls.
-/
namespace Lexertl.Spec

/-- What is fixed while lexing with an arbitrary state machine. -/
structure Lexer where
  flags : Flags
  npos : Nat
  bytes : Nat
  sm : Internals
  inp : List Nat

namespace Lexer

/-- The machine, in lexer state `r.state` and before `r.eoi`, takes the characters from
`p` to `k`; `s` holds the data of the rule (`s.id` is its id). -/
def Takes (L : Lexer) (r : Results) (p k : Nat) (s : LuState) : Prop :=
  attempt L.flags L.npos L.bytes L.sm L.inp r p p = .ok (s, k) ∧ s.endState = true

/-- The machine takes nothing at `p`. -/
def TakesNone (L : Lexer) (r : Results) (p : Nat) : Prop :=
  ∃ s k, attempt L.flags L.npos L.bytes L.sm L.inp r p p = .ok (s, k) ∧ s.endState = false

/-- A rule with the id `skip()`. -/
def IsSkip (L : Lexer) (s : LuState) : Prop := s.id = L.npos - 1

/-- A rule that continues the token: its id is that of the end of input, or (recursive
lexers) it popped back to an entry pushed by such a rule. -/
def IsCont (L : Lexer) (s : LuState) : Prop :=
  s.id = L.sm.eoi ∨ (L.flags.recursive = true ∧ s.pop = true)

/-- The characters from `p` to `q` are a sequence of texts, each taken by a rule with
property `P` in some lexer state. -/
inductive Run (L : Lexer) (eoi : Nat) (P : LuState → Prop) : Nat → Nat → Prop
  | nil (p : Nat) : Run L eoi P p p
  | snoc (p q k : Nat) (r : Results) (s : LuState) : Run L eoi P p q → q < eoi → r.eoi = eoi →
      L.Takes r q k s → P s → Run L eoi P p k

/-- One call of `lookup` returns with the outcome `o`. -/
def Call (L : Lexer) (r : Results) (o : M Results) : Prop :=
  Returns L.flags L.npos L.bytes L.sm L.inp r o

/-- Successive calls on one result object, with the results after each call. -/
inductive Calls (L : Lexer) : Results → List Results → Prop
  | nil (r : Results) : Calls L r []
  | cons (r r' : Results) (rs : List Results) : L.Call r (.ok r') → Calls L r' rs →
      Calls L r (r' :: rs)

/-- No end row of the machine carries the id `skip()` or that of the end of input. -/
def NoSkip (L : Lexer) : Prop :=
  ∀ rows ∈ L.sm.dfa, ∀ row ∈ rows, row[ixEnd]? ≠ some 0 →
    row[ixId]? ≠ some (L.npos - 1) ∧ row[ixId]? ≠ some L.sm.eoi

/-- The machine never takes an empty text. -/
def NoEmptyText (L : Lexer) : Prop := ∀ r p s, p < r.eoi → ¬ L.Takes r p p s

/-- The end of line entries of each table form no cycle. -/
def EolEnds (L : Lexer) : Prop :=
  L.flags.eol = true → ∀ rows ∈ L.sm.dfa, ∃ rank : Nat → Nat, ∀ (i e : Nat) (row : Row),
    rows[i]? = some row → row[ixEol]? = some e → e ≠ 0 → rank e < rank i ∧ rank i ≤ rows.length

end Lexer

/-- The text of a token. -/
def tokenText (inp : List Nat) (r : Results) : List Nat := (inp.drop r.first).take (r.second - r.first)

end Lexertl.Spec

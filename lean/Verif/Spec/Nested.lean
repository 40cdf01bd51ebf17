import Verif.Spec.Lexer

/-
Nested text: what lies between a rule that pushes a lexer state and the rule that pops it
again, in terms of the rules that are chosen.
-/
namespace Lexertl.Spec

/-- Rule `x` opens: it has no id of its own (the end of input id) and pushes a lexer
state. -/
def LexEnv.Opens (E : LexEnv) (x : Rule) : Prop :=
  x.id = E.eoi ∧ x.popDfa = false ∧ x.pushDfa ≠ E.npos

/-- Rule `x` is plain: it has no id of its own, neither pushes nor pops. -/
def LexEnv.Plain (E : LexEnv) (x : Rule) : Prop :=
  x.id = E.eoi ∧ x.popDfa = false ∧ x.pushDfa = E.npos

/-- Rule `x` closes: it pops, and is not a skip rule. -/
def LexEnv.Closes (E : LexEnv) (x : Rule) : Prop :=
  x.popDfa = true ∧ x.id ≠ E.npos - 1

/-- `At r p x k r'`: rule `x` is chosen at `p`, before the end; its text ends at `k` and
`r'` is the result object after it. -/
def LexEnv.At (E : LexEnv) (r : Results) (p : Nat) (x : Rule) (k : Nat) (r' : Results) : Prop :=
  p < r.eoi ∧ ∃ e next b, E.Chosen r p (x, e) k next b ∧ E.accept x r k next b = .ok r'

/-- `Nested r p r' q`: between `p` and `q` stands a sequence of plain texts and of
openings, each with its closing after nested text. -/
inductive Nested (E : LexEnv) : Results → Nat → Results → Nat → Prop
  | nil (r : Results) (p : Nat) : Nested E r p r p
  | plain (r r1 r' : Results) (p k q : Nat) (x : Rule) : E.Plain x → E.At r p x k r1 →
      Nested E r1 k r' q → Nested E r p r' q
  | pair (r r1 r2 r3 r' : Results) (p k l m q : Nat) (x y : Rule) : E.Opens x → E.Closes y →
      E.At r p x k r1 → Nested E r1 k r2 l → E.At r2 l y m r3 → Nested E r3 m r' q → Nested E r p r' q

end Lexertl.Spec

import Verif.Spec.Lexer

/-
When two rule lists are as good as each other.
-/
namespace Lexertl.Spec

/-- The rules do the same when their texts are matched: same ids, same next lexer state, same effect on the stack. -/
def SameAction (x y : Rule) : Prop :=
  x.id = y.id ∧ x.userId = y.userId ∧ x.nextDfa = y.nextDfa ∧ x.pushDfa = y.pushDfa ∧ x.popDfa = y.popDfa

/-- `x` is the first of the rules that matches `w`, at the start of a line or not. -/
def FirstFor (atLine : Bool) (xs : List SRule) (w : List Sym) (x : SRule) : Prop :=
  ∃ j : Nat, xs[j]? = some x ∧ LineMatch atLine x.2 w ∧ ∀ (i : Nat) (y : SRule), i < j → xs[i]? = some y → ¬ LineMatch atLine y.2 w

/-- For each text the first matching rules of both lists do the same, or no rule of either list matches. -/
def SameRules (xs ys : List SRule) : Prop :=
  ∀ atLine w, (∀ x, FirstFor atLine xs w x → ∃ y, FirstFor atLine ys w y ∧ SameAction x.1 y.1) ∧
    (∀ y, FirstFor atLine ys w y → ∃ x, FirstFor atLine xs w x ∧ SameAction x.1 y.1)

/-- Lexers with the same lexer states, with rules as good as each other in each. -/
def SameStates (xss yss : List (List SRule)) : Prop :=
  xss.length = yss.length ∧ ∀ (i : Nat) (xs ys : List SRule), xss[i]? = some xs → yss[i]? = some ys → SameRules xs ys

end Lexertl.Spec

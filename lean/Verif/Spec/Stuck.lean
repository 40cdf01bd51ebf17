import Verif.Spec.Lexer

/-
Positions from which no rule can go on, for lexers with several states.
-/
namespace Lexertl.Spec

/-- No rule of any lexer state matches a text that starts with the characters from `p` to `q`. -/
def Stuck (xss : List (List SRule)) (inp : List Nat) (p q : Nat) : Prop :=
  ∀ xs ∈ xss, ∀ x ∈ xs, ∀ w atLine, ¬ LineMatch atLine x.2 (text inp p q ++ w)

/-- No token is continued: no rule, and no entry of the stack, has the id of the end of input. -/
def NeverContinued (xss : List (List SRule)) (eoi : Nat) (r : Results) : Prop :=
  (∀ xs ∈ xss, ∀ x ∈ xs, x.1.id ≠ eoi) ∧ ∀ e ∈ r.stack, e.2 ≠ eoi

end Lexertl.Spec

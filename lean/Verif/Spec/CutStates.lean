import Verif.Spec.Resume
import Verif.Spec.Lexer

/-
Cutting a text, for lexers with several states.
-/
namespace Lexertl.Spec

/-- No rule of any lexer state matches a text that begins before the end of `u` and ends after it. -/
def NoneCrosses (xss : List (List SRule)) (u v : List Nat) : Prop :=
  ∀ xs ∈ xss, ∀ x ∈ xs, ∀ p k, p < u.length → u.length < k → k ≤ u.length + v.length → ∀ atLine, ¬ LineMatch atLine x.2 (text (u ++ v) p k)

/-- The result object with the end of the input moved to `n`. -/
def withEnd (n : Nat) (r : Results) : Results := { r with eoi := n }

/-- A result object for a new text `v`, that keeps the lexer state, the stack and the flag for the start of a line. -/
def startOn (npos : Nat) (v : List Nat) (r : Results) : Results := ⟨0, npos, 0, 0, v.length, r.bol, r.state, r.stack⟩

end Lexertl.Spec

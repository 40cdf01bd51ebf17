import Verif.Spec.Calls
import Verif.Spec.RuleOrder

/-
Lexing a text up to a position.
-/
namespace Lexertl.Spec

/-- The calls of `lookup` made from `r` on until a token ends at `stop`, with the results after each
call; `z` is the last result. -/
inductive Lexer.Upto (L : Lexer) (stop : Nat) : Results → List Results → Results → Prop
  | done (r : Results) : r.second = stop → L.Upto stop r [] r
  | more (r r' : Results) (rs : List Results) (z : Results) : r.second ≠ stop → L.Call r (.ok r') → L.Upto stop r' rs z →
      L.Upto stop r (r' :: rs) z

/-- What a result says about its token, with positions counted from `n` characters before the text. -/
def tokenAt (n : Nat) (r : Results) : Nat × Nat × Nat × Nat := (r.first + n, r.second + n, r.id, r.userId)

/-- No rule matches a text that begins before the end of `u` and ends after it. -/
def NoneAcross (xs : List SRule) (u v : List Nat) : Prop :=
  ∀ p k, p < u.length → u.length < k → k ≤ u.length + v.length → ∀ x ∈ xs, ¬ RMatches x.2 (text (u ++ v) p k)

end Lexertl.Spec

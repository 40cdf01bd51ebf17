import Verif.Spec.Lexer

/-
Comparing tokens of two lexers.
-/
namespace Lexertl.Spec

/-- Two results report the same token. -/
def sameToken (a b : Results) : Prop := a.first = b.first ∧ a.second = b.second ∧ a.id = b.id ∧ a.userId = b.userId

/-- The expression matches the text from `p` to `k`, and none of `es` matches it or a longer text. -/
structure Outdoes (e : Option Re) (es : List (Option Re)) (inp : List Nat) (p eoi k : Nat) : Prop where
  nonempty : p < k
  inside : k ≤ eoi
  hit : RMatches e (text inp p k)
  others : ∀ k', k ≤ k' → k' ≤ eoi → ∀ e' ∈ es, ¬ RMatches e' (text inp p k')

/-- Hypotheses on rules, machine and result object for which tokens are the best matches: greedy
rules without anchors, none with the id `skip` or that of the end of input, popping or matching the
empty text, in the lexer state `r.state` the rules `xs`. -/
structure PlainLexer (tr : Traits) (R : Rules) (sm : Internals) (f : Flags) (r : Results) (xs : List SRule) : Prop where
  rules : ∃ xss, RuleSet tr R xss ∧ (∀ xs ∈ xss, ∀ x ∈ xs, NoBol x.2) ∧ xss[r.state]? = some xs
  built : ∃ addr, buildTemp tr addr R = .ok sm
  nonempty : NoEmpty (xs.map (·.2))
  ids : ∀ x ∈ xs, x.1.id ≠ tr.npos - 1 ∧ x.1.id ≠ R.eoi ∧ (f.recursive = false ∨ x.1.popDfa = false)

end Lexertl.Spec

import Verif.Model.Generator
import Verif.Spec.Syntax

/-
Specification vocabulary for what `generator::build` is given.
-/
namespace Lexertl.Spec

/-- Bound on the number of byte charsets made for a token; `$` takes two, CR and LF. -/
def charsetsOf (tr : Traits) (t : Tok) : Nat :=
  match t.type with
  | .charset => slotsOf tr t.str
  | .eol => 2
  | _ => 0

/-- Rules as the tokeniser hands them on: their charsets are non-empty sets of characters
in normal form and the number of byte charsets of a lexer state fits `id_type`. -/
structure ReadRules (tr : Traits) (R : Rules) : Prop where
  token : ∀ rs ∈ R.states, ∀ r ∈ rs, FromTokeniser r.regex
  sets : ∀ rs ∈ R.states, ∀ r ∈ rs, ∀ t ∈ r.regex, t.type = .charset →
    Normal t.str ∧ t.str ≠ [] ∧ Within (charsOf tr - 1) t.str
  count : ∀ rs ∈ R.states, (rs.map fun r => (r.regex.map (charsetsOf tr)).sum).sum + 2 ≤ tr.npos

end Lexertl.Spec

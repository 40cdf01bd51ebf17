import Verif.Spec.Regex

/-
Rules for comments and the like: an opening text, any characters out of some set
repeated non-greedily, and a closing text.
-/
namespace Lexertl.Spec

/-- The parts of a sequence, however it is bracketed. -/
def Re.parts : Re → List Re
  | .seq l r => l.parts ++ r.parts
  | r => [r]

/-- The charsets of an expression for one character: a charset, or alternatives of
such. -/
def Re.sets : Re → Option (List (List (Nat × Nat)))
  | .chars t => some [t]
  | .alt l r => match l.sets, r.sets with
    | some a, some b => some (a ++ b)
    | _, _ => none
  | _ => none

/-- `r` is `u₁ … uₘ s*? v₁ … vₙ` for charsets `uᵢ` (the opening text), an expression
`s` for one character, and charsets `vᵢ` (the closing text), each of which is within
`s` or has no character in common with `s`.  (For a closing text of single characters
that is always so.) -/
def Enclosed (r : Re) : Prop :=
  ∃ (us vs ss : List (List (Nat × Nat))) (s : Re), us ≠ [] ∧ vs ≠ [] ∧ s.sets = some ss ∧
    r.parts = us.map .chars ++ .star s true :: vs.map .chars ∧
    ∀ v ∈ vs, (∀ c, Mem c v → ∃ t ∈ ss, Mem c t) ∨ (∀ c, Mem c v → ∀ t ∈ ss, ¬ Mem c t)

end Lexertl.Spec

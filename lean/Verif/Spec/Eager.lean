import Verif.Spec.Regex

/-
Expressions whose matches are never cut short by non-greedy rules: every character
after the first one is the first character of the operand of a greedy `?`, `*` or `+`.
-/
namespace Lexertl.Spec

/-- Every first character of `r` is a first character of the operand of a greedy
`?` or `*` (for `r+` the first repetition does not count). -/
def Re.eagerFirst : Re → Bool
  | .alt l r => l.eagerFirst && r.eagerFirst
  | .seq l r => l.eagerFirst && r.eagerFirst
  | .opt r lz => !lz || r.eagerFirst
  | .star r lz => !lz || r.eagerFirst
  | .plus r _ => r.eagerFirst
  | _ => false

/-- Every character of `r` that can come second or later is a first character of the
operand of a greedy `?`, `*` or `+`.  Examples: `[a-z]`, `[0-9]+`,
`[A-Za-z_][A-Za-z_0-9]*`, `[0-9]+([.][0-9]*)?`; but not `ab` or `[0-9]+[.][0-9]*`,
where nothing asks for the second character and the point to be read. -/
def Re.eager : Re → Bool
  | .chars _ => true
  | .alt l r => l.eager && r.eager
  | .seq l r => l.eager && r.eager && r.eagerFirst
  | .opt r _ => r.eager
  | .star r lz => r.eager && (!lz || r.eagerFirst)
  | .plus r lz => r.eager && (!lz || r.eagerFirst)
  | _ => false

end Lexertl.Spec

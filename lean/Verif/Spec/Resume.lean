import Verif.Spec.Calls

/-
Lexing the rest of a text on its own.
-/
namespace Lexertl.Spec

/-- The result object for the same text `n` characters further on. -/
def moved (n : Nat) (r : Results) : Results := { r with first := r.first + n, second := r.second + n, eoi := r.eoi + n }

/-- A result object for the text that follows the last token: the lexer state, the stack and the
flag for the start of a line are kept, the positions count from the end of that token, and nothing
is known about the token itself. -/
def afterToken (npos : Nat) (r : Results) : Results := ⟨0, npos, 0, 0, r.eoi - r.second, r.bol, r.state, r.stack⟩

/-- The same lexer for another input. -/
def Lexer.on (L : Lexer) (inp : List Nat) : Lexer := { L with inp := inp }

end Lexertl.Spec

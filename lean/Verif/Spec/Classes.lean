import Verif.Spec.Lexer
import Verif.Spec.Reads

/-
Characters that rules do not tell apart.
-/
namespace Lexertl.Spec

/-- Replacing each character `c` by `g c` makes no difference to the character sets of the rule: each of them contains `c`
if and only if it contains `g c`. -/
def Indistinct (g : Nat → Nat) : Option Re → Prop
  | none => True
  | some e => e.AllChars fun t => ∀ c, Mem c t ↔ Mem (g c) t

/-- No options `(?...:` in the text of a regex switch off that case is ignored. -/
def KeepsCase (w : List Nat) : Prop :=
  ∀ a v b f f', w = a ++ (40 :: 63 :: v ++ b) → Options false f v f' → f.icase = true → f'.icase = true

end Lexertl.Spec

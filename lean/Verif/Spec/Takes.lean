import Verif.Spec.Reads
import Verif.Spec.Lexer
import Verif.Model.Generator

/-
Lexers with one rule, given as a text, seen from outside.
-/
namespace Lexertl.Spec

/-- The text `w` is accepted as a rule (with id 1, the only one of a new rules object with
the flags `f`).  If the machine is built, the lexer returns the rule's id for the whole of a
non-empty input exactly if the input satisfies `P`. -/
def TextTakes (E : TokEnv) (tr : Traits) (f : ReFlags) (w : List Nat) (P : List Nat → Prop) : Prop :=
  (∃ o, AllOk E tr (RulesObj.new tr f) [.push w 1 0] o) ∧
  ∀ o, AllOk E tr (RulesObj.new tr f) [.push w 1 0] o → ∀ addr sm, buildTemp tr addr o.rules = .ok sm →
    ∀ (fl : Flags) (inp : List Nat), (∀ c ∈ inp, c < charsOf tr) → inp ≠ [] →
      ((∃ r, lookup fl tr.npos (bytesOf tr) sm inp (.mk' tr.npos 0 inp.length) = .ok r ∧ r.id = 1 ∧ r.first = 0 ∧
        r.second = inp.length) ↔ P inp)

/-- A text, to be put between double quotes: a backslash before each `"` and `\`. -/
def quoted : List Nat → List Nat
  | [] => []
  | c :: v => if c = 34 ∨ c = 92 then 92 :: c :: quoted v else c :: quoted v

end Lexertl.Spec

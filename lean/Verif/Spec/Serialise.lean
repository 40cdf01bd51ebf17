import Verif.Model.Serialise

/-
Specification vocabulary for saved machines.
-/
namespace Lexertl.Spec

/-- What the C++ types guarantee for a machine with ids of `w` bytes: all values fit the id type, all sizes fit `std::size_t`. -/
structure Fits (w : Nat) (m : Raw) : Prop where
  eoi : m.eoi ≤ idMax w
  features : m.features ≤ idMax w
  alphabet : m.alphabet.length ≤ sizeMax ∧ ∀ x ∈ m.alphabet, x ≤ idMax w
  lookups : m.lookup.length ≤ sizeMax
  lookup : ∀ v ∈ m.lookup, v.length ≤ sizeMax ∧ ∀ x ∈ v, x ≤ idMax w
  dfas : m.dfa.length ≤ sizeMax
  dfa : ∀ v ∈ m.dfa, v.length ≤ sizeMax ∧ ∀ x ∈ v, x ≤ idMax w

/-- Rows as wide as the alphabet says; tables without rows are the empty states. -/
def Widths (sm : Internals) : Prop :=
  sm.alphabet.length = sm.dfa.length ∧
    ∀ (i a : Nat) rows, sm.alphabet[i]? = some a → sm.dfa[i]? = some rows → (rows = [] ∨ 0 < a) ∧ ∀ row ∈ rows, row.length = a

/-- Text that consists of white space. -/
def Blank (t : List Nat) : Prop := ∀ c ∈ t, isSpace c = true

end Lexertl.Spec

import Verif.Spec.Reads
import Verif.Model.Csm

/-
Vocabulary for printed machines: which charsets are printed in a way that can be read, and
what of a char state machine is printed.
-/
namespace Lexertl.Spec

/-- The number of characters in a charset in normal form. -/
def charCount : List (Nat × Nat) → Nat
  | [] => 0
  | r :: t => (r.2 + 1 - r.1) + charCount t

/-- `u` is what is listed for the charset `t`: the other characters, after a `^`, if `t`
contains more than half of the characters but not all of them; otherwise `t`. -/
def Lists (max : Nat) (t u : List (Nat × Nat)) : Prop :=
  if max < 2 * charCount t ∧ t ≠ [(0, max)] then IsSet u (fun c => c ≤ max ∧ ¬ Mem c t) else u = t

/-- Characters printed as a hexadecimal number. -/
def AsHex (c : Nat) : Prop := (1 ≤ c ∧ c ≤ 6) ∨ (14 ≤ c ∧ c ≤ 31) ∨ 127 ≤ c

instance (c : Nat) : Decidable (AsHex c) := by unfold AsHex; infer_instance

/-- No number is followed by a digit: what is printed for a range ends in a number if its
last character is printed as a number. -/
def NumbersEnd : List (Nat × Nat) → Prop
  | r :: q :: t => (AsHex r.2 → ¬ IsHexDigit q.1) ∧ (r.2 = 0 → ¬ IsOct q.1) ∧ NumbersEnd (q :: t)
  | _ => True

def decNumbersEnd : (t : List (Nat × Nat)) → Decidable (NumbersEnd t)
  | [] => isTrue trivial
  | [_] => isTrue trivial
  | r :: q :: t => by
    have := decNumbersEnd (q :: t)
    unfold NumbersEnd; infer_instance

instance (t : List (Nat × Nat)) : Decidable (NumbersEnd t) := decNumbersEnd t

/-- The ranges can be read between brackets: no range of several characters ends in `-`, `]`
or `^`; a `]` of its own is the first; no number is followed by a digit. -/
structure Legible (u : List (Nat × Nat)) : Prop where
  ends : ∀ r ∈ u, r.1 ≠ r.2 → r.2 ∉ [45, 93, 94]
  first : (93, 93) ∉ u.tail
  numbers : NumbersEnd u

/-- The charset is printed in a way that can be read; a `$` of its own cannot. -/
def Clear (max : Nat) (t : List (Nat × Nat)) : Prop := t ≠ [(36, 36)] ∧ ∀ u, Lists max t u → Legible u

/-- What is printed of a state is the same: for end states everything that is done there,
for all states what follows. -/
structure ShownAlike (s s' : CState) : Prop where
  ends : s.endState = s'.endState
  done : s.endState = true → s.pushPop = s'.pushPop ∧ (s.pushPop = .push → s.pushDfa = s'.pushDfa) ∧ s.id = s'.id ∧
    s.userId = s'.userId ∧ s.nextDfa = s'.nextDfa
  eol : s.eolIndex = s'.eolIndex
  trans : s.transitions = s'.transitions

/-- The members of the lists are related one by one. -/
inductive Pointwise {α : Type} (R : α → α → Prop) : List α → List α → Prop
  | nil : Pointwise R [] []
  | cons (a b as bs) : R a b → Pointwise R as bs → Pointwise R (a :: as) (b :: bs)

/-- The same states, with the same starting point at the start of a line. -/
structure PrintedAlike (d d' : CDfa) : Prop where
  states : Pointwise ShownAlike d.states d'.states
  bol : d.states ≠ [] → d.bol = d'.bol

/-- All charsets of the machine are sets of characters printed in a way that can be read. -/
def ClearMachine (max : Nat) (m : List CDfa) : Prop :=
  ∀ d ∈ m, ∀ s ∈ d.states, ∀ p ∈ s.transitions, SetOk max p.2 ∧ Clear max p.2

end Lexertl.Spec

/-
Specification vocabulary for charsets, independent of the code: which
characters a list of closed ranges contains, and when the list is in normal
form.
-/
namespace Lexertl.Spec

/-- `c` lies in one of the closed ranges. -/
def Mem (c : Nat) (t : List (Nat × Nat)) : Prop := ∃ r ∈ t, r.1 ≤ c ∧ c ≤ r.2

/-- Normal form: every range is non-empty, ranges are in increasing order and
neither overlap nor touch. -/
def Normal (t : List (Nat × Nat)) : Prop :=
  (∀ r ∈ t, r.1 ≤ r.2) ∧ t.Pairwise (fun a b => a.2 + 1 < b.1)

/-- All characters are at most `max`. -/
def Within (max : Nat) (t : List (Nat × Nat)) : Prop := ∀ r ∈ t, r.2 ≤ max

instance (t : List (Nat × Nat)) : Decidable (Normal t) := by unfold Normal; infer_instance
instance (m : Nat) (t : List (Nat × Nat)) : Decidable (Within m t) := by unfold Within; infer_instance
instance (c : Nat) (t : List (Nat × Nat)) : Decidable (Mem c t) := by unfold Mem; infer_instance

end Lexertl.Spec

import Verif.Spec.CharSet

/-
Specification vocabulary for charsets of wide characters cut into byte charsets.
-/
namespace Lexertl.Spec

/-- The two bytes of a 16 bit character, most significant first. -/
def bytes2 (c : Nat) : List Nat := [c / 256, c % 256]

/-- The three bytes of a code point, most significant first. -/
def bytes3 (c : Nat) : List Nat := [c / 65536, c / 256 % 256, c % 256]

/-- The bytes are as many as the charsets of the row, and each lies in its charset. -/
def InRow : List (List (Nat × Nat)) → List Nat → Prop
  | [], [] => True
  | t :: ts, b :: bs => Mem b t ∧ InRow ts bs
  | _, _ => False

/-- The bytes lie in one of the rows. -/
def InRows (rows : List (List (List (Nat × Nat)))) (bs : List Nat) : Prop := ∃ row ∈ rows, InRow row bs

instance InRow.dec : (row : List (List (Nat × Nat))) → (bs : List Nat) → Decidable (InRow row bs)
  | [], [] => .isTrue trivial
  | [], _ :: _ => .isFalse id
  | _ :: _, [] => .isFalse id
  | t :: ts, b :: bs => @instDecidableAnd (Mem b t) (InRow ts bs) _ (InRow.dec ts bs)

instance (rows : List (List (List (Nat × Nat)))) (bs : List Nat) : Decidable (InRows rows bs) := by
  unfold InRows; infer_instance

end Lexertl.Spec

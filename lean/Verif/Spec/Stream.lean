import Verif.Model.Stream

/-
What iterators over a stream are meant to do: each is a position in the text of the stream.
-/
namespace Lexertl.Stream

/-- What an iterator stands for: a position in the text that has a character, the end of the
text (an iterator that got there, or the default constructed one), or the iterator made from
the stream, as long as it has not been used itself. -/
inductive Pos
  | at (p : Nat)
  | ended
  | null
  | master
  deriving DecidableEq, Repr

/-- The iterators there are (`none`: destroyed); `fresh`: none other than the one made from the
stream has had a position yet. -/
structure Ideal where
  pos : List (Option Pos)
  fresh : Bool
  deriving DecidableEq, Repr

/-- Of the positions iterators are at, the least. -/
def leastOf : List (Option Pos) → Option Nat
  | [] => none
  | some (.at p) :: ps =>
    match leastOf ps with
    | some q => some (min p q)
    | none => some p
  | _ :: ps => leastOf ps

/-- The position a copy of the iterator made from the stream has: the first one of the text at
the beginning, then the least one still held.  `none`: nothing is said. -/
def Ideal.begin (s : Ideal) : Option Nat :=
  if s.fresh then some 0 else leastOf s.pos

/-- The position after `p`. -/
def Pos.next (text : List Nat) (p : Nat) : Pos :=
  if p + 1 < text.length then .at (p + 1) else .ended

/-- Whether two iterators that are not the master are equal. -/
def Pos.same : Pos → Pos → Bool
  | .at p, .at q => p == q
  | .ended, .ended | .ended, .null | .null, .ended | .null, .null => true
  | _, _ => false

/-- What an operation does.  `none`: it is not a proper use. -/
def Ideal.step (text : List Nat) (s : Ideal) : Op → Option (Ideal × Output)
  | .default => some ({ s with pos := s.pos ++ [some .null] }, .iter s.pos.length)
  | .copy i =>
    match s.pos[i]? with
    | some (some .master) => s.begin.map fun p => (⟨s.pos ++ [some (.at p)], false⟩, .iter s.pos.length)
    | some (some p) => some ({ s with pos := s.pos ++ [some p] }, .iter s.pos.length)
    | _ => none
  | .assign i j =>
    match s.pos[i]?, s.pos[j]? with
    | some (some .master), _ => none
    | _, some (some .master) => none
    | some (some _), some (some q) => some ({ s with pos := s.pos.set i (some q) }, .nothing)
    | _, _ => none
  | .inc i =>
    match s.pos[i]? with
    | some (some .master) => s.begin.map fun p => (⟨s.pos.set i (some (Pos.next text p)), false⟩, .nothing)
    | some (some (.at p)) => some ({ s with pos := s.pos.set i (some (Pos.next text p)) }, .nothing)
    | _ => none
  | .deref i =>
    match s.pos[i]? with
    | some (some .master) =>
      s.begin.bind fun p => text[p]?.map fun c => (⟨s.pos.set i (some (.at p)), false⟩, .char c)
    | some (some (.at p)) => text[p]?.map fun c => (s, .char c)
    | _ => none
  | .eq i j =>
    match s.pos[i]?, s.pos[j]? with
    | some (some .master), _ => none
    | _, some (some .master) => none
    | some (some p), some (some q) => some (s, .bool (p.same q))
    | _, _ => none
  | .destroy i =>
    match s.pos[i]? with
    | some (some _) => some ({ s with pos := s.pos.set i none }, .nothing)
    | _ => none

/-- What a sequence of operations does. -/
def Ideal.run (text : List Nat) : Ideal → List Op → Option (Ideal × List Output)
  | s, [] => some (s, [])
  | s, op :: ops =>
    (s.step text op).bind fun r => (Ideal.run text r.1 ops).map fun t => (t.1, r.2 :: t.2)

/-- One iterator made from a stream. -/
def Ideal.start : Ideal := ⟨[some .master], true⟩

end Lexertl.Stream

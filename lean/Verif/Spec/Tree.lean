import Verif.Model.Generator

/-
Specification vocabulary for syntax trees and position sets.
-/
namespace Lexertl.Spec

/-- A syntax tree without node identities. -/
inductive Shape
  | leaf (token : Nat) (greedy : Greedy)
  | seq (l r : Shape)
  | alt (l r : Shape)
  | iter (s : Shape) (greedy : Greedy)
  deriving DecidableEq, Repr

/-- What tree `t` looks like if its leaves are the nodes of store `h`; `none` if it has
end nodes or refers to something that is not a leaf. -/
def shape (h : Heap) : Tree → Option Shape
  | .leaf n _ =>
    match h[n]? with
    | some ⟨.leaf token g, _⟩ => some (.leaf token g)
    | _ => none
  | .fin _ => none
  | .seq l r => (shape h l).bind fun a => (shape h r).map fun b => .seq a b
  | .sel l r => (shape h l).bind fun a => (shape h r).map fun b => .alt a b
  | .iter t g => (shape h t).map fun a => .iter a g

/-- The nodes of a tree, from left to right. -/
def nodes : Tree → List Nat
  | .leaf n _ => [n]
  | .fin n => [n]
  | .seq l r => nodes l ++ nodes r
  | .sel l r => nodes l ++ nodes r
  | .iter t _ => nodes t

/-- Position `n` accepts index `x`: it is a leaf for a charset containing alphabet class
`x` (`sm` lists the classes of each charset), or for `^` or `$` with token `x`. -/
def AcceptsIdx (tr : Traits) (sm : List (List Nat)) (h : Heap) (n x : Nat) : Prop :=
  ∃ tk g fol, h[n]? = some ⟨.leaf tk g, fol⟩ ∧ tk ≠ tr.nullToken ∧
    (((tk = tr.bolToken ∨ tk = tr.eolToken) ∧ x = tk) ∨
     (tk ≠ tr.bolToken ∧ tk ≠ tr.eolToken ∧ ∃ s, sm[tk]? = some s ∧ x ∈ s))

/-- Position `q` may follow position `n`. -/
def Follows (h : Heap) (n q : Nat) : Prop := ∃ c, h[n]? = some c ∧ q ∈ c.follow

/-- First occurrences only, in order. -/
def firsts (l : List Nat) : List Nat := l.foldl (fun acc q => if q ∈ acc then acc else acc ++ [q]) []

end Lexertl.Spec

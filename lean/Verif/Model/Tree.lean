import Verif.Model.Basic

/-
Model of `parser/tree/*.hpp`: the syntax tree, its position sets and its copy.

Inner nodes are immutable after construction, so they are values (`Tree`).
Leaf and end nodes are also pointed to by position sets and are mutated
(`append_followpos`, `greedy`), so they live in a heap and are named by their
allocation number.
-/
namespace Lexertl

/-- Payload of `basic_leaf_node` (leaf_node.hpp:84-87) and `basic_end_node`
(end_node.hpp:108-116). -/
inductive NodeData
  | leaf (token : Nat) (greedy : Greedy)
  | fin (id userId uniqueId nextDfa pushDfa : Nat) (popDfa : Bool) (greedy : Greedy)
  deriving DecidableEq, Repr

/-- A leaf or end node with its `_followpos`. -/
structure Cell where
  data : NodeData
  follow : List Nat
  deriving DecidableEq, Repr

/-- The leaf and end nodes of `node_ptr_vector_`, in order of allocation. -/
abbrev Heap := List Cell

/-- node.hpp:23 `node_type` with the children.  `leaf n null`: `null` is the
`_nullable` computed at leaf_node.hpp:27. -/
inductive Tree
  | leaf (n : Nat) (null : Bool)
  | fin (n : Nat)
  | seq (l r : Tree)
  | sel (l r : Tree)
  | iter (t : Tree) (greedy : Greedy)
  deriving DecidableEq, Repr

namespace Tree

/-- node.hpp:48-51 `nullable` with the constructor arguments at leaf_node.hpp:27,
end_node.hpp:30, sequence_node.hpp:28, selection_node.hpp:27, iteration_node.hpp:29. -/
def nullable : Tree → Bool
  | leaf _ null => null
  | fin _ => false
  | seq l r => l.nullable && r.nullable
  | sel l r => l.nullable || r.nullable
  | iter _ _ => true

/-- `_firstpos`: leaf_node.hpp:31-35, end_node.hpp:39, sequence_node.hpp:32-37,
selection_node.hpp:31-32, iteration_node.hpp:33. -/
def firstpos : Tree → List Nat
  | leaf n null => if null then [] else [n]
  | fin n => [n]
  | seq l r => l.firstpos ++ (if l.nullable then r.firstpos else [])
  | sel l r => l.firstpos ++ r.firstpos
  | iter t _ => t.firstpos

/-- `_lastpos`: leaf_node.hpp:31-35, end_node.hpp:40, sequence_node.hpp:39-44,
selection_node.hpp:33-34, iteration_node.hpp:34. -/
def lastpos : Tree → List Nat
  | leaf n null => if null then [] else [n]
  | fin n => [n]
  | seq l r => (if r.nullable then l.lastpos else []) ++ r.lastpos
  | sel l r => l.lastpos ++ r.lastpos
  | iter t _ => t.lastpos

/-- The test on `_right->what_type()` at sequence_node.hpp:67-76 and
selection_node.hpp:49-58. -/
def isOp : Tree → Bool
  | seq _ _ => true
  | sel _ _ => true
  | iter _ _ => true
  | _ => false

/-- Number of nodes. -/
def size : Tree → Nat
  | leaf _ _ => 1
  | fin _ => 1
  | seq l r => l.size + r.size + 1
  | sel l r => l.size + r.size + 1
  | iter t _ => t.size + 1

end Tree

namespace Heap

/-- `append_followpos`: leaf_node.hpp:40-45; end nodes inherit node.hpp:65-68,
which throws. -/
def appendFollow (h : Heap) (n : Nat) (fp : List Nat) : M Heap :=
  match h[n]? with
  | none => .error (.ub "node")
  | some c =>
    match c.data with
    | .leaf _ _ => .ok (h.set n { c with follow := c.follow ++ fp })
    | .fin .. => .error (.throw "Internal error node::append_followpos().")

/-- `greedy(greedy_repeat)`: leaf_node.hpp:63-67 (once `hard` it stays `hard`);
end nodes inherit node.hpp:195-198, which throws. -/
def setGreedy (h : Heap) (n : Nat) (g : Greedy) : M Heap :=
  match h[n]? with
  | none => .error (.ub "node")
  | some c =>
    match c.data with
    | .leaf t old => .ok (h.set n { c with data := .leaf t (if old = .hard then old else g) })
    | .fin .. => .error (.throw "Internal error node::greedy(bool).")

/-- `append_followpos` on each node of a list (sequence_node.hpp:46-52,
iteration_node.hpp:36-39). -/
def appendFollowAll (h : Heap) : List Nat → List Nat → M Heap
  | [], _ => .ok h
  | n :: ns, fp => do (← h.appendFollow n fp).appendFollowAll ns fp

/-- `greedy` on each node of a list (iteration_node.hpp:41-44,
parser.hpp:797-801). -/
def setGreedyAll (h : Heap) : List Nat → Greedy → M Heap
  | [], _ => .ok h
  | n :: ns, g => do (← h.setGreedy n g).setGreedyAll ns g

/-- `basic_leaf_node` constructor, leaf_node.hpp:26-36. -/
def newLeaf (nullToken : Nat) (h : Heap) (token : Nat) (g : Greedy) : Heap × Tree :=
  (h ++ [⟨.leaf token g, []⟩], .leaf h.length (token == nullToken))

/-- `basic_sequence_node` constructor, sequence_node.hpp:26-53. -/
def newSeq (h : Heap) (l r : Tree) : M (Heap × Tree) := do
  return (← h.appendFollowAll l.lastpos r.firstpos, .seq l r)

/-- `basic_iteration_node` constructor, iteration_node.hpp:27-45. -/
def newIter (h : Heap) (t : Tree) (g : Greedy) : M (Heap × Tree) := do
  let h ← h.appendFollowAll t.lastpos t.firstpos
  return (← h.setGreedyAll t.firstpos g, .iter t g)

end Heap

/-- Local variables of node.hpp:70-104 `copy`; stacks have their top first. -/
structure CopyState where
  nodes : List Tree
  perform : List Bool
  down : Bool
  new : List Tree
  heap : Heap

namespace CopyState

/-- node.hpp:83-87: one call of `traverse` (leaf_node.hpp:52-56,
end_node.hpp:50-54, sequence_node.hpp:62-81, selection_node.hpp:44-63,
iteration_node.hpp:54-60). -/
def traverse (s : CopyState) : M CopyState :=
  match s.nodes with
  | [] => .error (.ub "top of empty node_stack_")
  | .leaf _ _ :: _ => .ok { s with down := false }
  | .fin _ :: _ => .ok { s with down := false }
  | .seq l r :: _ => .ok { s with
      perform := (if r.isOp then [false] else []) ++ true :: s.perform,
      nodes := l :: r :: s.nodes, down := true }
  | .sel l r :: _ => .ok { s with
      perform := (if r.isOp then [false] else []) ++ true :: s.perform,
      nodes := l :: r :: s.nodes, down := true }
  | .iter t _ :: _ => .ok { s with
      perform := true :: s.perform, nodes := t :: s.nodes, down := true }

/-- node.hpp:89-97: one call of `copy_node` (leaf_node.hpp:89-96,
end_node.hpp:118-124, sequence_node.hpp:87-109, selection_node.hpp:69-91,
iteration_node.hpp:66-84) followed by `if (!down_) node_stack_.pop()`. -/
def copyNode (nullToken : Nat) (s : CopyState) (top : Tree) (rest : List Tree) : M CopyState :=
  match top with
  | .leaf n _ =>
    match s.heap[n]? with
    | some ⟨.leaf token g, _⟩ =>
      let (h, t) := s.heap.newLeaf nullToken token g
      .ok { s with heap := h, new := t :: s.new, nodes := rest }
    | _ => .error (.ub "leaf")
  | .fin _ => .ok { s with nodes := rest }
  | .seq _ _ =>
    match s.perform with
    | [] => .error (.ub "top of empty perform_op_stack_")
    | true :: ps =>
      match s.new with
      | rhs :: lhs :: new => do
        let (h, t) ← s.heap.newSeq lhs rhs
        .ok { s with heap := h, new := t :: new, perform := ps, nodes := rest }
      | _ => .error (.ub "top of empty new_node_stack_")
    | false :: ps => .ok { s with down := true, perform := ps }
  | .sel _ _ =>
    match s.perform with
    | [] => .error (.ub "top of empty perform_op_stack_")
    | true :: ps =>
      match s.new with
      | rhs :: lhs :: new => .ok { s with new := .sel lhs rhs :: new, perform := ps, nodes := rest }
      | _ => .error (.ub "top of empty new_node_stack_")
    | false :: ps => .ok { s with down := true, perform := ps }
  | .iter _ g =>
    match s.perform with
    | [] => .error (.ub "top of empty perform_op_stack_")
    | true :: ps =>
      match s.new with
      | t :: new => do
        let (h, t') ← s.heap.newIter t g
        .ok { s with heap := h, new := t' :: new, perform := ps, nodes := rest }
      | _ => .error (.ub "top of empty new_node_stack_")
    | false :: ps => .ok { s with down := true, perform := ps }

/-- node.hpp:81-98, the nested loops, one call of `traverse` or `copy_node` at a
time. -/
def run (nullToken : Nat) : Nat → CopyState → M CopyState
  | 0, _ => .error .fuel
  | fuel + 1, s =>
    if s.down then do run nullToken fuel (← s.traverse)
    else
      match s.nodes with
      | [] => .ok s
      | top :: rest => do run nullToken fuel (← s.copyNode nullToken top rest)

end CopyState

/-- node.hpp:70-104 `copy`. -/
def Heap.copy (nullToken : Nat) (h : Heap) (t : Tree) : M (Heap × Tree) := do
  let s ← CopyState.run nullToken (4 * t.size + 1)
    { nodes := [t], perform := [], down := true, new := [], heap := h }
  match s.new with
  | [new] => .ok (s.heap, new)
  | _ => .error (.ub "assert(new_node_stack_.size() == 1)")

end Lexertl

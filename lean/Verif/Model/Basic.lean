/-
Shared vocabulary of the model: outcomes, enumerations and numeric constants.
-/
namespace Lexertl

/-- How a modelled function can fail to return: a C++ exception, undefined
behaviour (read outside a container, dereference of an end iterator, pop of an
empty stack, ...), or an iteration bound of the model that was too small. -/
inductive Fault
  | throw (what : String)
  | ub (what : String)
  | fuel
  deriving DecidableEq, Repr

/-- Result of a modelled function. -/
abbrev M (α : Type) := Except Fault α

/-- enums.hpp:33-36 `greedy_repeat`. -/
inductive Greedy
  | no | yes | hard
  deriving DecidableEq, Repr

/-- enums.hpp:18-22 `state_index`: columns of a DFA row. -/
def ixEnd : Nat := 0
def ixId : Nat := 1
def ixUserId : Nat := 2
def ixPushDfa : Nat := 3
def ixNextDfa : Nat := 4
def ixEol : Nat := 5
def ixDead : Nat := 6
def ixTransitions : Nat := 7

/-- enums.hpp:30-32 `state_bit`. -/
def bitEnd : Nat := 1
def bitGreedy : Nat := 2
def bitPop : Nat := 4

/-- sm_traits.hpp:12-50 and the type parameters that fix `npos`: `npos` is
`static_cast<id_type>(~0)`, i.e. `2^k - 1`. -/
structure Traits where
  npos : Nat
  compressed : Bool
  char24 : Bool
  deriving DecidableEq, Repr

namespace Traits
/-- node.hpp:37-40 `null_token`. -/
def nullToken (tr : Traits) : Nat := tr.npos
/-- parser.hpp:181-184 `bol_token` (`~1`). -/
def bolToken (tr : Traits) : Nat := tr.npos - 1
/-- parser.hpp:186-189 `eol_token` (`~2`). -/
def eolToken (tr : Traits) : Nat := tr.npos - 2
/-- `static_cast<id_type>(n)`. -/
def toId (tr : Traits) (n : Nat) : Nat := n % (tr.npos + 1)
end Traits

/-- `std::set<id_type>::insert` on the increasing list of the set's elements. -/
def setInsert (x : Nat) : List Nat → List Nat
  | [] => [x]
  | y :: ys => if x < y then x :: y :: ys else if x = y then y :: ys else y :: setInsert x ys

end Lexertl

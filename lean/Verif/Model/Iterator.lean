import Verif.Model.Lookup

/-
Model of `iterator.hpp`.
-/
namespace Lexertl

/-- iterator.hpp:84-85: `_results` and `_sm`.  One state machine is in play, so `_sm` is
either its address or null: `live` says which. -/
structure Iter where
  results : Results
  live : Bool
  deriving DecidableEq, Repr

/-- match_results.hpp:117-127 `operator ==` (the stack of a recursive result is not
compared). -/
def Results.same (a b : Results) : Bool :=
  a.id == b.id && a.userId == b.userId && a.first == b.first && a.second == b.second &&
    a.eoi == b.eoi && a.bol == b.bol && a.state == b.state

namespace Iter

/-- iterator.hpp:87-95 `lookup`, calling `lexertl::lookup` with a bound on the number of
jumps; `*_sm` of a null pointer is undefined. -/
def advance (f : Flags) (npos bytes : Nat) (sm : Internals) (inp : List Nat) (fuel : Nat) (it : Iter) :
    M Iter := do
  if it.live then
    let r ← lookupFuel f npos bytes sm inp fuel it.results
    .ok ⟨r, r.first != r.eoi⟩
  else .error (.ub "iterator::lookup: *_sm is null")

/-- iterator.hpp:31-37: constructor from a range. -/
def start (f : Flags) (npos bytes : Nat) (sm : Internals) (inp : List Nat) (fuel : Nat)
    (first eoi : Nat) (bol : Bool := true) (state : Nat := 0) : M Iter :=
  advance f npos bytes sm inp fuel ⟨.mk' npos first eoi bol state, true⟩

/-- iterator.hpp:29: default constructor.  The value initialised `_results` of an end
iterator plays no part in comparisons. -/
def endIter (npos : Nat) : Iter := ⟨.mk' npos 0 0, false⟩

/-- iterator.hpp:63-68 `operator ==`. -/
def eq (a b : Iter) : Bool :=
  a.live == b.live && (if a.live = false then true else a.results.same b.results)

end Iter

end Lexertl

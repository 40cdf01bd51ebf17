import Verif.Spec.Lexer

/-
Other numbers for lexer states, ids and user ids.
-/
namespace Lexertl.Spec

/-- New numbers for lexer states, ids and user ids. -/
structure Renaming where
  state : Nat → Nat
  id : Nat → Nat
  userId : Nat → Nat

namespace Renaming

/-- The rule with the new numbers. -/
def rule (ρ : Renaming) (x : SRule) : SRule :=
  ({ x.1 with id := ρ.id x.1.id, userId := ρ.userId x.1.userId, nextDfa := ρ.state x.1.nextDfa, pushDfa := ρ.state x.1.pushDfa }, x.2)

/-- The result object with the new numbers. -/
def result (ρ : Renaming) (r : Results) : Results :=
  { r with id := ρ.id r.id, userId := ρ.userId r.userId, state := ρ.state r.state, stack := r.stack.map fun e => (ρ.state e.1, ρ.id e.2) }

/-- `npos` and the ids with a meaning, `skip` and the id of the end of input, are kept apart from the others; the rules of lexer state `i`, with
the new numbers, are those of the new lexer state for `i`. -/
structure Ok (ρ : Renaming) (npos eoi eoi' : Nat) (xss yss : List (List SRule)) : Prop where
  noState : ∀ i, ρ.state i = npos ↔ i = npos
  noId : ρ.id npos = npos
  noUserId : ρ.userId npos = npos
  skip : ∀ i, ρ.id i = npos - 1 ↔ i = npos - 1
  eoi : ∀ i, ρ.id i = eoi' ↔ i = eoi
  rules : ∀ (i : Nat) (xs : List SRule), xss[i]? = some xs → yss[ρ.state i]? = some (xs.map ρ.rule)

end Renaming

end Lexertl.Spec

import Verif.Model.Lookup

/-
Model of `basic_state_machine::minimise` (state_machine.hpp:67-206).

A table is a list of rows, as in the rest of the model, where the code has one vector
and `dfa_alphabet_`, the length of a row.  Row numbers are natural numbers; in the code
they are `id_type`, so the model is right for tables of at most `npos` rows.
-/
namespace Lexertl

/-- state_machine.hpp:128-148: the loop over `second_`; `curr` is `curr_index_`, the list
holds the rows from there on.  State: `lookup_` and `index_set_`. -/
def minInner (row : Row) (newIx : Nat) : List Row → Nat → List Nat × List Nat → List Nat × List Nat
  | [], _, st => st
  | r :: rs, curr, (lookup, set) =>
    if curr ∈ set then minInner row newIx rs (curr + 1) (lookup, set)
    else if row = r then minInner row newIx rs (curr + 1) (lookup.set curr newIx, curr :: set)
    else minInner row newIx rs (curr + 1) (lookup, set)

/-- state_machine.hpp:124-155: the loop over `first_`; `index` is `index_`, `newIx` is
`new_index_`. -/
def minOuter (npos : Nat) : List Row → Nat → Nat → List Nat × List Nat → List Nat × List Nat
  | [], _, _, st => st
  | r :: rs, index, newIx, st =>
    let (lookup, set) := minInner r newIx rs (index + 1) st
    if lookup[index]? = some npos then
      minOuter npos rs (index + 1) (newIx + 1) (lookup.set index newIx, set)
    else minOuter npos rs (index + 1) newIx (lookup, set)

/-- `lookup_ptr_[i]`. -/
def mapIx (lookup : List Nat) (i : Nat) : M Nat :=
  match lookup[i]? with
  | some v => .ok v
  | none => .error (.ub "minimise: lookup_ out of range")

/-- `lookup_ptr_[*ptr_++]` for a list of cells (194-198). -/
def mapIxs (lookup : List Nat) : List Nat → M (List Nat)
  | [] => .ok []
  | v :: vs => do
    let w ← mapIx lookup v
    let ws ← mapIxs lookup vs
    .ok (w :: ws)

/-- state_machine.hpp:179-198: one row of the new table.  The column `dead_state` keeps
the 0 it got from `resize`. -/
def minRow (lookup : List Nat) (row : Row) : M Row :=
  match row with
  | c0 :: c1 :: c2 :: c3 :: c4 :: eol :: _dead :: ts => do
    let e ← mapIx lookup eol
    let ts ← mapIxs lookup ts
    .ok (c0 :: c1 :: c2 :: c3 :: c4 :: e :: 0 :: ts)
  | _ => .error (.ub "minimise: row too short")

/-- state_machine.hpp:171-199: the rows from number `index` on. -/
def minRows (lookup set : List Nat) : List Row → Nat → M (List Row)
  | [], _ => .ok []
  | r :: rs, index =>
    if index ∈ set then minRows lookup set rs (index + 1)
    else do
      let r ← minRow lookup r
      let rs ← minRows lookup set rs (index + 1)
      .ok (r :: rs)

/-- state_machine.hpp:105-205 `minimise_dfa`. -/
def minimiseDfa (npos : Nat) (rows : List Row) : M (List Row) :=
  match rows with
  | [] => .ok []
  | [] :: _ => .error (.ub "minimise: empty row")
  | (bol :: cells) :: rest =>
    let (lookup, set) := minOuter npos rest 1 1 ((List.replicate rows.length npos).set 0 0, [])
    if set = [] then .ok rows
    else do
      let bol ← if bol ≠ 0 then mapIx lookup bol else .ok bol
      let rest ← minRows lookup set rest 1
      .ok ((bol :: cells) :: rest)

/-- state_machine.hpp:78-84: the `do` loop; `fuel` bounds the number of passes. -/
def minimiseLoop (npos : Nat) : Nat → List Row → M (List Row)
  | 0, _ => .error .fuel
  | fuel + 1, rows => do
    let rows' ← minimiseDfa npos rows
    if rows'.length ≠ rows.length then minimiseLoop npos fuel rows' else .ok rows'

/-- state_machine.hpp:71-86: the loop over the tables. -/
def minimiseAll (npos : Nat) : List Nat → List (List Row) → M (List (List Row))
  | _, [] => .ok []
  | [], _ :: _ => .error (.ub "_dfa_alphabet out of range")
  | a :: as, rows :: rest => do
    let rows ← if a ≠ 0 then minimiseLoop npos (rows.length + 1) rows else .ok rows
    let rest ← minimiseAll npos as rest
    .ok (rows :: rest)

/-- state_machine.hpp:67-87 `minimise`. -/
def Internals.minimise (npos : Nat) (sm : Internals) : M Internals := do
  let dfa ← minimiseAll npos sm.alphabet sm.dfa
  .ok { sm with dfa := dfa }

end Lexertl

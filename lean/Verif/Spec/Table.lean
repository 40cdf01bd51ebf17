import Verif.Model.Lookup

/-
When a table is fit for lookup: all row and column numbers in it exist.
-/
namespace Lexertl.Spec

/-- A table with its character table.  Row 0 is the row no transition leads to; its first
cell is the start row for line starts (0: none).  Row numbers are below `npos`. -/
structure Table (npos : Nat) (d : Dfa) : Prop where
  two : 2 ≤ d.rows.length
  few : d.rows.length ≤ npos
  width : ∃ a, 7 ≤ a ∧ (∀ row ∈ d.rows, row.length = a) ∧ ∀ col ∈ d.lookup, 6 ≤ col ∧ col < a
  bol : ∃ row b, d.rows[0]? = some row ∧ row[0]? = some b ∧ b < d.rows.length
  eol : ∀ p row e, 0 < p → d.rows[p]? = some row → row[ixEol]? = some e → e < d.rows.length
  dead : ∀ p row e, 0 < p → d.rows[p]? = some row → row[ixDead]? = some e → e = 0
  trans : ∀ p row c e, 0 < p → d.rows[p]? = some row → 6 < c → row[c]? = some e → e < d.rows.length

/-- A state machine all of whose tables are fit for lookup, with a character table for all
bytes, and whose rows name only lexer states that exist (`npos` as push state: no push; a
row that pops needs no next state). -/
structure Machine (npos : Nat) (sm : Internals) : Prop where
  states : sm.lookup.length = sm.dfa.length ∧ sm.alphabet.length = sm.dfa.length
  table : ∀ (i : Nat) l rows, sm.lookup[i]? = some l → sm.dfa[i]? = some rows →
    Table npos ⟨l, rows⟩ ∧ l.length = 256
  alphabet : ∀ (i a : Nat) rows, sm.alphabet[i]? = some a → sm.dfa[i]? = some rows → ∀ row ∈ rows, row.length = a
  next : ∀ rows ∈ sm.dfa, ∀ row ∈ rows.drop 1, ∀ e s, row[ixEnd]? = some e → row[ixNextDfa]? = some s →
    hasBit e bitPop = true ∨ s < sm.dfa.length
  push : ∀ rows ∈ sm.dfa, ∀ row ∈ rows.drop 1, ∀ s, row[ixPushDfa]? = some s →
    s = npos ∨ s < sm.dfa.length

/-- The rules name only lexer states that exist; a rule that pops has no next state. -/
def TargetsExist (npos : Nat) (R : Rules) : Prop :=
  ∀ rs ∈ R.states, ∀ r ∈ rs, (r.popDfa = true ∨ r.nextDfa < R.states.length) ∧
    (r.pushDfa = npos ∨ r.pushDfa < R.states.length)

/-- No row pops. -/
def NoPops (sm : Internals) : Prop :=
  ∀ rows ∈ sm.dfa, ∀ row ∈ rows.drop 1, ∀ e, row[ixEnd]? = some e → hasBit e bitPop = false

/-- A results object from which a call may be made: a position in the input, a lexer
state and a stack of lexer states that exist. -/
structure Ready (sm : Internals) (inp : List Nat) (r : Results) : Prop where
  pos : r.second ≤ r.eoi
  eoi : r.eoi ≤ inp.length
  state : r.state < sm.dfa.length
  stack : ∀ e ∈ r.stack, e.1 < sm.dfa.length

end Lexertl.Spec

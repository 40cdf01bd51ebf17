import Verif.Model.Csm
import Verif.Spec.CharSet

/-
What a char state machine is: states with transitions on characters.
-/
namespace Lexertl.Spec

/-- There is a transition from `s` on the character `c` to state `t`. -/
def _root_.Lexertl.CState.Goes (s : CState) (c t : Nat) : Prop := ∃ set, (t, set) ∈ s.transitions ∧ Mem c set

/-- A machine whose transitions, end of line and beginning of line states exist, and whose
charsets are in normal form. -/
structure CWell (npos : Nat) (d : CDfa) : Prop where
  few : d.states.length ≤ npos
  bol : d.bol = npos ∨ d.bol < d.states.length
  eol : ∀ s ∈ d.states, s.eolIndex = npos ∨ s.eolIndex < d.states.length
  trans : ∀ s ∈ d.states, ∀ t set, (t, set) ∈ s.transitions → t < d.states.length ∧ Normal set

/-- The path of a text: from state `a` the text leads to state `b`. -/
inductive CPath (d : CDfa) : Nat → List Nat → Nat → Prop
  | nil (a : Nat) : CPath d a [] a
  | cons (a c t b : Nat) (s : CState) (w : List Nat) (hs : d.states[a]? = some s) (hg : s.Goes c t)
      (h : CPath d t w b) : CPath d a (c :: w) b

/-- The path of a text in a table of a state machine: row numbers, the character table gives
the column, 0 is no row. -/
inductive TPath (l : List Nat) (rows : List Row) : Nat → List Nat → Nat → Prop
  | nil (a : Nat) : TPath l rows a [] a
  | cons (a c col t b : Nat) (row : Row) (w : List Nat) (hr : rows[a]? = some row) (hl : l[c]? = some col)
      (hc : row[col]? = some t) (ht : t ≠ 0) (h : TPath l rows t w b) : TPath l rows a (c :: w) b

/-- What a state says about a token that ends there. -/
structure SameState (npos : Nat) (row : Row) (s : CState) : Prop where
  endState : ∃ e, row[ixEnd]? = some e ∧ (s.endState = true ↔ e ≠ 0)
  id : row[ixId]? = some s.id
  userId : row[ixUserId]? = some s.userId
  pushDfa : row[ixPushDfa]? = some s.pushDfa
  nextDfa : row[ixNextDfa]? = some s.nextDfa
  eol : ∃ e, row[ixEol]? = some e ∧ ((e = 0 ∧ s.eolIndex = npos) ∨ (e ≠ 0 ∧ s.eolIndex + 1 = e))
  pop : ∃ e, row[ixEnd]? = some e ∧ (s.pushPop = .pop ↔ s.pushDfa = npos ∧ hasBit e bitPop = true)
  push : s.pushPop = .push ↔ s.pushDfa ≠ npos

/-- The machine `d'` is `d` with states merged: `m` maps the states of `d` onto those of `d'`,
the first to the first; a state keeps whether it ends a token, its user id and the lexer state
that follows, and its transitions, end of line state and the beginning of line state are those
of `d` under `m`. -/
structure Merged (npos : Nat) (d d' : CDfa) (m : Nat → Nat) : Prop where
  first : m 0 = 0
  onto : ∀ q < d'.states.length, ∃ p < d.states.length, m p = q
  bol : d'.bol = if d.bol = npos then npos else m d.bol
  state : ∀ (p : Nat) s, d.states[p]? = some s → ∃ s', d'.states[m p]? = some s' ∧
    s'.endState = s.endState ∧ s'.userId = s.userId ∧ s'.nextDfa = s.nextDfa ∧
    s'.eolIndex = (if s.eolIndex = npos then npos else m s.eolIndex) ∧
    ∀ c t', s'.Goes c t' ↔ ∃ t, s.Goes c t ∧ m t = t'

/-- The ids and the stack operations are gone: every id is 1 in the end states and 0 in the
others, and no state pushes or pops. -/
def Erased (npos : Nat) (d : CDfa) : Prop := ∀ s ∈ d.states,
  s.id = (if s.endState then 1 else 0) ∧ s.pushPop = .neither ∧ s.pushDfa = npos

/-- No two states of the machine are equal. -/
def NoTwins (d : CDfa) : Prop := ∀ (p q : Nat), p < q → q < d.states.length → d.states[p]? ≠ d.states[q]?

end Lexertl.Spec

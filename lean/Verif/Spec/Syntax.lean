import Verif.Spec.Lex

/-
Specification vocabulary for token sequences of regexes, besides the grammar in
`Verif.Spec.Regex`.
-/
namespace Lexertl.Spec

/-- The tokens that may stand between `BEGIN` and `END`. -/
def Terminal (t : Tok) : Prop :=
  t.type = .or_ ∨ t.type = .charset ∨ t.type = .bol ∨ t.type = .eol ∨ t.type = .openparen ∨
  t.type = .closeparen ∨ ∃ r q, Postfix t r q

/-- No prefix has more closing than opening parentheses (the tokeniser counts them). -/
def NoSurplusClose (ts : List Tok) : Prop :=
  ∀ u v, ts = u ++ v → u.countP (·.type == .closeparen) ≤ u.countP (·.type == .openparen)

/-- A rule as the tokeniser hands it on. -/
def FromTokeniser (regex : List Tok) : Prop :=
  ∃ b e ts, regex = b :: ts ++ [e] ∧ b.type = .begin ∧ e.type = .end_ ∧ (∀ t ∈ ts, Terminal t) ∧
    NoSurplusClose ts

/-- The numbers of repetitions a postfix operator allows, read off the token. -/
inductive Reps : Tok → Nat → Prop
  | opt (e s) (k : Nat) : k ≤ 1 → Reps ⟨.opt, e, s⟩ k
  | star (e s) (k : Nat) : Reps ⟨.zeroormore, e, s⟩ k
  | plus (e s) (k : Nat) : 1 ≤ k → Reps ⟨.oneormore, e, s⟩ k
  | rep (e s) (lo : Nat) (hi : Option Nat) (k : Nat) : Count e lo hi → lo ≤ k → (∀ h, hi = some h → k ≤ h) →
      Reps ⟨.repeatn, e, s⟩ k

end Lexertl.Spec

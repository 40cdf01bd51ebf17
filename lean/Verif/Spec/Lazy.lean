import Verif.Spec.Reads

/-
Vocabulary for rules with non-greedy operators.
-/
namespace Lexertl.Spec

/-- A non-greedy operator is the last part of the expression, or of one of its
alternatives. -/
def Re.endsLazy : Re → Bool
  | chars _ | bol | eol => false
  | seq _ r => r.endsLazy
  | alt l r => l.endsLazy || r.endsLazy
  | opt _ z | star _ z | plus _ z | rep _ _ _ z => z

/-- The expression is the alternative of these, in this order. -/
inductive Alternatives : Re → List Re → Prop
  | one (r) : Alternatives r [r]
  | alt (l r ls rs) : Alternatives l ls → Alternatives r rs → Alternatives (.alt l r) (ls ++ rs)

/-- What becomes of an expression whose last part is repeated by a non-greedy operator: this
part is repeated as few times as the operator allows. -/
inductive Shorter : Re → Re → Prop
  | opt (l r) : Shorter (.seq l (.opt r true)) l
  | star (l r) : Shorter (.seq l (.star r true)) l
  | plus (r) : Shorter (.plus r true) r
  | rep (r lo hi) : 1 ≤ lo → (∀ h, hi = some h → lo ≤ h) → Shorter (.rep r lo hi true) (.rep r lo (some lo) false)
  | seq (l r s) : Shorter r s → Shorter (.seq l r) (.seq l s)

/-- This is done until no non-greedy operator is last. -/
inductive Shortened : Re → Re → Prop
  | done (r) : r.endsLazy = false → Shortened r r
  | step (r s t) : Shorter r s → Shortened s t → Shortened r t

/-- As `Program`: rules may have non-greedy operators.  `es`: the expressions of the rules,
shortened. -/
inductive LazyProgram (E : TokEnv) (npos : Nat) (f : ReFlags) : List Call → List (List Nat × Re) → List (Re × Nat × Nat) → Prop
  | nil : LazyProgram E npos f [] [] []
  | mac (cs M es name w r) : LazyProgram E npos f cs M es → validName name = true → find name M = none → TextOk E w →
      Means E M f w r → r.noBol = true → r.noEol = true →
      LazyProgram E npos f (cs ++ [.insertMacro name w]) ((name, r) :: M) es
  | rule (cs M es w r s id uid) : LazyProgram E npos f cs M es → TextOk E w → Means E M f w r → Shortened r s →
      id ≠ 0 → id ≠ npos → LazyProgram E npos f (cs ++ [.push w id uid]) M (es ++ [(s, id, uid)])

end Lexertl.Spec

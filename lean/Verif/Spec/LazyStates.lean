import Verif.Spec.StateProgram
import Verif.Spec.Lazy

/-
Programs with several lexer states and non-greedy operators, given as texts.
-/
namespace Lexertl.Spec

/-- As `StateProgram`: rules may have non-greedy operators.  `xss`: the rules of each lexer
state, with their expressions shortened as in `LazyProgram`. -/
inductive LazyStateProgram (E : TokEnv) (npos : Nat) (f : ReFlags) :
    List Call → List (List Nat) → List (List Nat × Re) → List (List SRule) → Prop
  | nil : LazyStateProgram E npos f [] [chars "INITIAL"] [] [[]]
  | state (cs names M xss name) : LazyStateProgram E npos f cs names M xss → validName name = true → name ∉ names →
      names.length < npos → LazyStateProgram E npos f (cs ++ [.pushState name]) (names ++ [name]) M (xss ++ [[]])
  | mac (cs names M xss name w r) : LazyStateProgram E npos f cs names M xss → validName name = true → find name M = none → TextOk E w →
      Means E M f w r → r.noBol = true → r.noEol = true →
      LazyStateProgram E npos f (cs ++ [.insertMacro name w]) names ((name, r) :: M) xss
  | rule (cs names M xss w r s id uid) : LazyStateProgram E npos f cs names M xss → TextOk E w → Means E M f w r → Shortened r s →
      id ≠ 0 → id ≠ npos →
      LazyStateProgram E npos f (cs ++ [.push w id uid]) names M (addRules (fun _ => ruleOf s id uid 0 npos false) [0] xss)
  | ruleIn (cs names M xss curr is w r s id new g uid) : LazyStateProgram E npos f cs names M xss → Places names curr is →
      TextOk E w → Means E M f w r → Shortened r s → id ≠ some 0 → id ≠ some npos → Leads npos names new g →
      LazyStateProgram E npos f (cs ++ [.pushIn curr w id new uid]) names M
        (addRules (fun i => ruleOf s (id.getD 0) uid (g i).1 (g i).2.1 (g i).2.2) is xss)

end Lexertl.Spec

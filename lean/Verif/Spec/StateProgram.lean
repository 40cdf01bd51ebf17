import Verif.Spec.Reads
import Verif.Spec.Lexer

/-
Programs with several lexer states, given as texts.
-/
namespace Lexertl.Spec

/-- What is said about a rule, apart from its text: expression, ids, the lexer state to go on
with, the state to return to (`npos`: none) and whether it pops. -/
def ruleOf (r : Re) (id uid next push : Nat) (pop : Bool) : SRule := (⟨[], id, uid, next, push, pop⟩, some r)

/-- Names of lexer states, separated by commas, and their numbers. -/
inductive NameList (names : List (List Nat)) : List Nat → List Nat → Prop
  | one (name j) : names[j]? = some name → NameList names name [j]
  | more (name j w js) : names[j]? = some name → NameList names w js → NameList names (name ++ 44 :: w) (j :: js)

/-- The lexer states a rule is for: a list of names, or `*`, which is all states. -/
inductive Places (names : List (List Nat)) : List Nat → List Nat → Prop
  | all : Places names [42] (List.range names.length)
  | list (w js) : NameList names w js → Places names w js

/-- Where a rule of lexer state `i` leads: the state to go on with, the state to return to,
and whether it pops.
`.`: stay; `NAME`: go on in this state; `>NAME`: the same, and return to `i` later;
`>NAME:BACK`: the same, and return to `BACK`; `<`: return. -/
inductive Leads (npos : Nat) (names : List (List Nat)) : List Nat → (Nat → Nat × Nat × Bool) → Prop
  | stay : Leads npos names [46] fun i => (i, npos, false)
  | goto (name j) : names[j]? = some name → Leads npos names name fun _ => (j, npos, false)
  | push (name j) : names[j]? = some name → Leads npos names (62 :: name) fun i => (j, i, false)
  | pushTo (name back j k) : names[j]? = some name → names[k]? = some back →
      Leads npos names (62 :: name ++ 58 :: back) fun _ => (j, k, false)
  | pop : Leads npos names [60] fun _ => (npos, npos, true)

/-- Rule `g i` is added to the lexer states `is`, one after the other. -/
def addRules (g : Nat → SRule) (is : List Nat) (xss : List (List SRule)) : List (List SRule) :=
  is.foldl (fun xss i => xss.modify i (· ++ [g i])) xss

/-- As `Program`, with lexer states.  `names`: their names, in the order of their numbers;
`xss`: the rules of each of them.  A rule without an id (`none`) continues the token: it has
the id 0. -/
inductive StateProgram (E : TokEnv) (npos : Nat) (f : ReFlags) :
    List Call → List (List Nat) → List (List Nat × Re) → List (List SRule) → Prop
  | nil : StateProgram E npos f [] [chars "INITIAL"] [] [[]]
  | state (cs names M xss name) : StateProgram E npos f cs names M xss → validName name = true → name ∉ names →
      names.length < npos → StateProgram E npos f (cs ++ [.pushState name]) (names ++ [name]) M (xss ++ [[]])
  | mac (cs names M xss name w r) : StateProgram E npos f cs names M xss → validName name = true → find name M = none → TextOk E w →
      Means E M f w r → r.noBol = true → r.noEol = true →
      StateProgram E npos f (cs ++ [.insertMacro name w]) names ((name, r) :: M) xss
  | rule (cs names M xss w r id uid) : StateProgram E npos f cs names M xss → TextOk E w → Means E M f w r → r.greedy = true →
      id ≠ 0 → id ≠ npos →
      StateProgram E npos f (cs ++ [.push w id uid]) names M (addRules (fun _ => ruleOf r id uid 0 npos false) [0] xss)
  | ruleIn (cs names M xss curr is w r id new g uid) : StateProgram E npos f cs names M xss → Places names curr is →
      TextOk E w → Means E M f w r → r.greedy = true → id ≠ some 0 → id ≠ some npos → Leads npos names new g →
      StateProgram E npos f (cs ++ [.pushIn curr w id new uid]) names M
        (addRules (fun i => ruleOf r (id.getD 0) uid (g i).1 (g i).2.1 (g i).2.2) is xss)

end Lexertl.Spec

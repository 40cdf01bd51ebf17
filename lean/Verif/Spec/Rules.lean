import Verif.Spec.Lex
import Verif.Spec.Text
import Verif.Spec.Table

/-
Specification vocabulary for the rules object: sequences of calls of its members.
-/
namespace Lexertl.Spec

/-- A call of a member of `basic_rules` that may change the object. -/
inductive Call
  | pushState (name : List Nat)
  | clear
  | clearState (dfa : Nat)
  | setFlags (flags : ReFlags)
  | insertMacro (name regex : List Nat)
  | push (regex : List Nat) (id userId : Nat)
  | pushIn (currDfa regex : List Nat) (id : Option Nat) (newDfa : List Nat) (userId : Nat)
  deriving DecidableEq, Repr

/-- The outcome, without the returned value. -/
def outcome {α : Type} : M α → M Unit
  | .ok _ => .ok ()
  | .error e => .error e

/-- The object after the call, and the outcome. -/
def Call.run (E : TokEnv) (tr : Traits) (c : Call) (o : RulesObj) : RulesObj × M Unit :=
  match c with
  | .pushState name => ((o.pushState tr name).1, outcome (o.pushState tr name).2)
  | .clear => (o.clearAll tr, .ok ())
  | .clearState dfa => (o.clearState dfa, .ok ())
  | .setFlags flags => (o.setFlags flags, .ok ())
  | .insertMacro name regex => o.insertMacro E name regex
  | .push regex id userId => o.pushInitial E tr regex id userId
  | .pushIn currDfa regex id newDfa userId => o.pushNamed E tr currDfa regex id newDfa userId

/-- The call returned or threw. -/
def Done : M Unit → Prop
  | .ok _ => True
  | .error (.throw _) => True
  | .error _ => False

/-- `cs` were called, in this order, on `o`; each returned or threw; `o'` is the object
afterwards. -/
inductive Calls (E : TokEnv) (tr : Traits) : RulesObj → List Call → RulesObj → Prop
  | nil (o : RulesObj) : Calls E tr o [] o
  | cons (o : RulesObj) (c : Call) (cs : List Call) (o' : RulesObj) : Done (c.run E tr o).2 →
      Calls E tr (c.run E tr o).1 cs o' → Calls E tr o (c :: cs) o'

/-- The text of a call, if any, consists of characters and has plain repeat counts. -/
def Call.TextOk (E : TokEnv) : Call → Prop
  | .insertMacro _ regex => Spec.TextOk E regex ∧ PlainCounts regex
  | .push regex _ _ => Spec.TextOk E regex ∧ PlainCounts regex
  | .pushIn _ regex _ _ _ => Spec.TextOk E regex ∧ PlainCounts regex
  | _ => True

/-- The call does not define a macro, or it defined one, or it left the object alone. -/
def Call.MacroOk (E : TokEnv) (tr : Traits) (c : Call) (o : RulesObj) : Prop :=
  ∀ name regex, c = .insertMacro name regex → (c.run E tr o).2 = .ok () ∨ (c.run E tr o).1 = o

/-- `cs` were called, in this order, on `o`, and `o'` is the object afterwards; the texts
are texts, and no macro definition failed half way. -/
inductive Careful (E : TokEnv) (tr : Traits) : RulesObj → List Call → RulesObj → Prop
  | nil (o : RulesObj) : Careful E tr o [] o
  | cons (o : RulesObj) (c : Call) (cs : List Call) (o' : RulesObj) : c.TextOk E → c.MacroOk E tr o →
      Careful E tr (c.run E tr o).1 cs o' → Careful E tr o (c :: cs) o'

/-- A token of this type occurs in the regex of the rule. -/
def Rule.Has (r : Rule) (P : TT → Prop) : Prop := ∃ t ∈ r.regex, P t.type

/-- `^` is repeated by `*`, `+` or `{n,m}`. -/
def RepeatedBol (ts : List Tok) : Prop :=
  ∃ b d, [b, d] <:+: ts ∧ b.type = .bol ∧
    d.type ∈ [.zeroormore, .azeroormore, .oneormore, .aoneormore, .repeatn, .arepeatn]

/-- Rules without non-greedy operators and `$`, that do not repeat `^`, whose number of
byte charsets fits `id_type`, and whose charsets over code points are faithfully
represented. -/
structure PlainRules (tr : Traits) (o : RulesObj) : Prop where
  greedy : ∀ rs ∈ o.states, ∀ r ∈ rs, ¬ Rule.Has r (fun t => isLazy t = true)
  noEol : ∀ rs ∈ o.states, ∀ r ∈ rs, ¬ Rule.Has r (· = .eol)
  once : ∀ rs ∈ o.states, ∀ r ∈ rs, ¬ RepeatedBol r.regex
  planes : tr.compressed = true → tr.char24 = true → ∀ rs ∈ o.states, ∀ r ∈ rs, ∀ t ∈ r.regex, t.type = .charset →
    ∀ x ∈ t.str, FewPlanes x
  count : ∀ rs ∈ o.states,
    (rs.map fun r => ((r.regex.filter (·.type == .charset)).map fun t => slotsOf tr t.str).sum).sum + 2 ≤ tr.npos

end Lexertl.Spec

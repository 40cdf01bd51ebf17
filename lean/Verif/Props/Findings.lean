import Verif.Props.StateTexts
import Verif.Props.Generated

/-
Texts that do not do what one expects: witnesses for findings in DESIGN.md.
-/
namespace Lexertl.Props
open Spec

/-- C60: at the start of a line the rule `^a|b` does not match `b`; elsewhere it does. -/
theorem C60_caret_alternative :
    Ex.tokens (Ex.runs [.push (chars "^a|b") 1 5, .push (chars "x") 2 5] Ex.obj0).rules (chars "b") 1 = some [(65535, 0, 1)] ∧
    Ex.tokens (Ex.runs [.push (chars "^a|b") 1 5, .push (chars "x") 2 5] Ex.obj0).rules (chars "xb") 2 = some [(2, 0, 1), (1, 1, 2)] := by
  constructor <;> decide +kernel

/-- C49: macros with anchors are not put in parentheses: with `M` defined as `b|a$`, the
rule `x{M}` matches "a" and not "xa". -/
theorem C49_anchored_macro_bare :
    Ex.tokens (Ex.runs [.insertMacro (chars "M") (chars "b|a$"), .push (chars "x{M}") 1 5] Ex.obj0).rules (chars "a") 1 = some [(1, 0, 1)] ∧
    Ex.tokens (Ex.runs [.insertMacro (chars "M") (chars "b|a$"), .push (chars "x{M}") 1 5] Ex.obj0).rules (chars "xa") 1 = some [(65535, 0, 1)] ∧
    Ex.tokens (Ex.runs [.insertMacro (chars "M") (chars "b|a"), .push (chars "x{M}") 1 5] Ex.obj0).rules (chars "xa") 1 = some [(1, 0, 2)] := by
  refine ⟨?_, ?_, ?_⟩ <;> decide +kernel

/-- C59: a last `{00,5}?` is not taken as optional: `xa{0,5}?` matches "x", `xa{00,5}?` takes
"xaa". -/
theorem C59_padded_zero :
    Ex.tokens (Ex.runs [.push (chars "xa{0,5}?") 1 5] Ex.obj0).rules (chars "xaa") 1 = some [(1, 0, 1)] ∧
    Ex.tokens (Ex.runs [.push (chars "xa{00,5}?") 1 5] Ex.obj0).rules (chars "xaa") 1 = some [(1, 0, 3)] := by
  constructor <;> decide +kernel

/-- C35: with `(a|b)$` and `a\nX` also "b\nX" is a token of the second rule. -/
theorem C35_shared_rows :
    Ex.tokens (Ex.runs [.push (chars "(a|b)$") 1 5, .push (chars "a\\nX") 2 5] Ex.obj0).rules (chars "b\nX") 1 = some [(2, 0, 3)] := by
  decide +kernel

/-- C30: with `a+?b?` in front, the rule `aac` is accepted and the machine is built, but "aac" is "a", "a" and an unmatched character. -/
theorem C30_cut_off_rule :
    (buildTemp Ex.tr (fun i => i) (Ex.runs [.push (chars "a+?b?") 1 5, .push (chars "aac") 2 5] Ex.obj0).rules).isOk = true ∧
    Ex.tokens (Ex.runs [.push (chars "a+?b?") 1 5, .push (chars "aac") 2 5] Ex.obj0).rules (chars "aac") 3 =
      some [(1, 0, 1), (1, 1, 2), (65535, 2, 3)] := by
  constructor <;> decide +kernel

/-- C32: `INITIAL,` is taken as `INITIAL`, `<x` as `<`; an empty list of states is accepted
and adds nothing. -/
theorem C32_loose_names :
    (Ex.runs [.pushIn (chars "INITIAL,") (chars "a") (some 1) (chars "<x") 5] Ex.obj0).states =
      (Ex.runs [.pushIn (chars "INITIAL") (chars "a") (some 1) (chars "<") 5] Ex.obj0).states ∧
    (Ex.obj0.pushNamed Ex.env Ex.tr (chars "INITIAL,") (chars "a") (some 1) (chars "<x") 5).2.isOk = true ∧
    (Ex.obj0.pushNamed Ex.env Ex.tr [] (chars "a") (some 1) (chars ".") 5).2.isOk = true ∧
    (Ex.runs [.pushIn [] (chars "a") (some 1) (chars ".") 5] Ex.obj0).states = Ex.obj0.states := by
  decide +kernel

/-- C14: a machine with a rule that pops, looked up without the recursive flag, reads outside
of its tables. -/
theorem C14_pop_needs_recursive :
    (match lookupFuel Ex.fAll 65535 1 (Ex.machine (Ex.runs Ex.stateCalls Ex.obj0).rules) (chars "bea") 20 (.mk' 65535 0 3) with
      | .ok r => isUb (lookupFuel Ex.fAll 65535 1 (Ex.machine (Ex.runs Ex.stateCalls Ex.obj0).rules) (chars "bea") 20 r)
      | .error _ => false) = true ∧
    (match lookupFuel Ex.fRec 65535 1 (Ex.machine (Ex.runs Ex.stateCalls Ex.obj0).rules) (chars "bea") 20 (.mk' 65535 0 3) with
      | .ok r => (lookupFuel Ex.fRec 65535 1 (Ex.machine (Ex.runs Ex.stateCalls Ex.obj0).rules) (chars "bea") 20 r).isOk
      | .error _ => false) = true := by
  constructor <;> decide +kernel

end Lexertl.Props

import Verif.Model.Csm

/-
`generator::build` for a `basic_char_state_machine`: `sm_traits::lookup` and
`sm_traits::compressed` are false, `is_dfa` is true.
-/
namespace Lexertl

/-- state_machine.hpp:288-362 `append` as `build_dfa` calls it (generator.hpp:285, 714-730).  The
counter `i_` (312) has type `id_type`: if there are more than `npos` states it wraps round and the
loop runs past the end of the table. -/
def appendDfa (npos : Nat) (classes : List Charset) (rows : List Row) : M CDfa :=
  if rows.length > npos + 1 then .error (.ub "source_dfa_ out of range")
  else csmAppend npos (classes.map (·.token)) rows

/-- generator.hpp:60-95: as `buildLoop`.  `append_dfa` is the last step of `build_dfa`, so it
comes before the test of the number of rows.  `ds` is `_sm_vector` of the temporary machine. -/
def buildCsmLoop (tr : Traits) (addr : Nat → Nat) (R : Rules) :
    List (List Rule) → List Nat → BuildState → List CDfa → M (BuildState × List CDfa)
  | [], _, B, ds => .ok (B, ds)
  | rs :: rss, feats, B, ds => do
    if rs = [] then .error (.throw "Lexer states with no rules are not allowed")
    else
      let seenBol := hasBit (feats.headD 0) 1
      let (p, root, uid) ← buildTree tr seenBol rs B.heap B.uniqueId
      checkZeroLen R.matchZeroLen p.heap root
      let out ← buildDfa tr false R.allowSuppressed addr p.heap p.charsets p.crId p.nlId root
        B.used
      let d ← appendDfa tr.npos out.classes out.rows
      if out.rows.length ≥ tr.npos then
        .error (.throw "The id_type you have chosen cannot hold this many DFA rows.")
      else buildCsmLoop tr addr R rss feats.tail ⟨p.heap, out.used, uid, B.dfas ++ [out]⟩ (ds ++ [d])

/-- generator.hpp:45-100 for a char state machine: everything in `build` before the final `swap`.
`create` (739-744) does nothing. -/
def buildCsm (tr : Traits) (addr : Nat → Nat) (R : Rules) : M (List CDfa) := do
  let (B, ds) ← buildCsmLoop tr addr R R.states R.features ⟨[], [], 0, []⟩ []
  checkSuppressed R.allowSuppressed B.uniqueId B.used
  .ok ds

/-- generator.hpp:45-102 `build` on a char state machine that held `old`. -/
def buildChar (tr : Traits) (addr : Nat → Nat) (R : Rules) (old : List CDfa) : List CDfa × M Unit :=
  match buildCsm tr addr R with
  | .ok new => (new, .ok ())
  | .error e => (old, .error e)

end Lexertl

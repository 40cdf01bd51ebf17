import Verif.Model.CsmBuild

/-
`generator::build` for a `basic_char_state_machine<..., false>`: `sm_traits::is_dfa` is false.
-/
namespace Lexertl

/-- generator.hpp:206-226 with the NFA version of `partition_charsets` (765-770).  `sm_traits::lookup` and
`sm_traits::compressed` are false. -/
def prepareNfa (tr : Traits) (charsets : CharsetMap) (cr nl : Nat) : M (List Charset × List (List Nat) × Nat × Nat) := do
  let classes := fillRhsCharsets charsets
  match buildSetMapping 0 classes (List.replicate charsets.length []) with
  | some mapping =>
    (if cr ≠ tr.npos then firstClass mapping cr else .ok cr) >>= fun cr' =>
    (if nl ≠ tr.npos then firstClass mapping nl else .ok nl) >>= fun nl' =>
    .ok (classes, mapping, cr', nl')
  | none => .error (.ub "index out of range")

/-- generator.hpp:247-284 with the NFA version of `build_equiv_list` (1004-1010). -/
def buildNfaStates (E : DfaEnv) : Nat → Nat → DState → M DState
  | 0, _, _ => .error .fuel
  | fuel + 1, index, D =>
    match D.seen[index]? with
    | none => .ok D
    | some v => do
      let es ← fillRhsEquiv E.tr E.heap E.mapping v
      buildNfaStates E fuel (index + 1) (← buildState E index es D)

/-- generator.hpp:188-289 `build_dfa` where `is_dfa` is false. -/
def buildNfaDfa (tr : Traits) (allowSuppressed : Bool) (addr : Nat → Nat) (heap : Heap)
    (charsets : CharsetMap) (cr nl : Nat) (root : Tree) (used : List Nat) : M DfaOut := do
  let (classes, mapping, cr, nl) ← prepareNfa tr charsets cr nl
  let size := classes.length + ixTransitions + (if cr = tr.npos ∧ nl = tr.npos then 0 else 1)
  if size > tr.npos then
    .error (.throw "The id_type you have chosen cannot hold the dfa alphabet.")
  else
    let E : DfaEnv := ⟨tr, heap, addr, mapping, cr, nl, size, allowSuppressed⟩
    let (_, D) ← closure E ⟨[List.replicate size 0], [], [], used, []⟩ root.firstpos
    let D ← buildNfaStates E (2 ^ heap.length + 1) 0 D
    D.eolSet.foldlM (fixClash cr nl) D.rows >>= fun rows =>
    .ok ⟨[], size, rows, D.used, classes⟩

/-- generator.hpp:60-95: as `buildCsmLoop`. -/
def buildNfaLoop (tr : Traits) (addr : Nat → Nat) (R : Rules) :
    List (List Rule) → List Nat → BuildState → List CDfa → M (BuildState × List CDfa)
  | [], _, B, ds => .ok (B, ds)
  | rs :: rss, feats, B, ds => do
    if rs = [] then .error (.throw "Lexer states with no rules are not allowed")
    else
      let seenBol := hasBit (feats.headD 0) 1
      let (p, root, uid) ← buildTree tr seenBol rs B.heap B.uniqueId
      checkZeroLen R.matchZeroLen p.heap root
      let out ← buildNfaDfa tr R.allowSuppressed addr p.heap p.charsets p.crId p.nlId root B.used
      let d ← appendDfa tr.npos out.classes out.rows
      if out.rows.length ≥ tr.npos then
        .error (.throw "The id_type you have chosen cannot hold this many DFA rows.")
      else buildNfaLoop tr addr R rss feats.tail ⟨p.heap, out.used, uid, B.dfas ++ [out]⟩ (ds ++ [d])

/-- generator.hpp:45-100 for a char state machine with `is_dfa` false: everything before the final `swap`. -/
def buildNfa (tr : Traits) (addr : Nat → Nat) (R : Rules) : M (List CDfa) := do
  let (B, ds) ← buildNfaLoop tr addr R R.states R.features ⟨[], [], 0, []⟩ []
  checkSuppressed R.allowSuppressed B.uniqueId B.used
  .ok ds

end Lexertl

import Verif.Model.Parser

/-
Model of `generator.hpp` (DFA version, `is_dfa = true`) and `internals.hpp`.

A DFA is the list of its rows; the code stores the rows one after the other in
one vector (row `k` occupies `[k * alphabet, (k+1) * alphabet)`), all pointers
into it are computed as `row * alphabet` plus a column.
-/
namespace Lexertl

abbrev Row := List Nat

/-- internals.hpp:18-27 `basic_internals` (the DFAs as lists of rows). -/
structure Internals where
  eoi : Nat
  lookup : List (List Nat)
  alphabet : List Nat
  features : Nat
  dfa : List (List Row)
  deriving DecidableEq, Repr

namespace Heap

/-- `end_state()`: node.hpp:131-134, end_node.hpp:73-76. -/
def endState (h : Heap) (n : Nat) : M Bool :=
  match h[n]? with
  | some ⟨.leaf _ _, _⟩ => .ok false
  | some ⟨.fin .., _⟩ => .ok true
  | none => .error (.ub "node")

/-- `token()`: leaf_node.hpp:58-61; end nodes throw (node.hpp:186-193). -/
def token (h : Heap) (n : Nat) : M Nat :=
  match h[n]? with
  | some ⟨.leaf t _, _⟩ => .ok t
  | some ⟨.fin .., _⟩ => .error (.throw "Internal error node::token().")
  | none => .error (.ub "node")

/-- `followpos()`: leaf_node.hpp:74-82; the one of an end node is always empty
(end_node.hpp:61-71). -/
def followpos (h : Heap) (n : Nat) : M (List Nat) :=
  match h[n]? with
  | some c => .ok c.follow
  | none => .error (.ub "node")

end Heap

/-- `set_mapping_[i]` (unchecked access). -/
def mappingAt (sm : List (List Nat)) (i : Nat) : M (List Nat) :=
  match sm[i]? with
  | some s => .ok s
  | none => .error (.ub "set_mapping_ index out of range")

/-- generator.hpp:363-371, 394-402, 443-451, 482-490: does a position list
contain an end node? -/
def anyEnd (h : Heap) : List Nat → M Bool
  | [] => .ok false
  | n :: ns => do if ← h.endState n then return true else anyEnd h ns

/-- generator.hpp:352-382, the loop over `cr_followpos_` of `prune_NL`; the result
is the list from `nl_iter_` on after the erasures. -/
def pruneNLcr (h : Heap) (sm : List (List Nat)) (nl : Nat) : List Nat → List Nat → M (List Nat)
  | [], rest => .ok rest
  | c :: cs, rest => do
    if ← h.endState c then pruneNLcr h sm nl cs rest
    else if nl ∈ (← mappingAt sm (← h.token c)) then
      if ← anyEnd h (← h.followpos c) then
        match rest with
        | [] => .error (.ub "erase of the end iterator")
        | _ :: rest => pruneNLcr h sm nl cs rest
      else pruneNLcr h sm nl cs rest
    else pruneNLcr h sm nl cs rest

/-- generator.hpp:335-415, the `while` loop of `prune_NL` on the list from
`nl_iter_` on; the result is what is left of that list. -/
def pruneNLloop (h : Heap) (sm : List (List Nat)) (cr nl : Nat) : Nat → List Nat → M (List Nat)
  | _, [] => .ok []
  | 0, _ :: _ => .error .fuel
  | fuel + 1, n :: rest => do
    if ← h.endState n then return n :: (← pruneNLloop h sm cr nl fuel rest)
    else
      let set ← mappingAt sm (← h.token n)
      (if cr ∈ set then do pruneNLcr h sm nl (← h.followpos n) (n :: rest)
        else .ok (n :: rest)) >>= fun left =>
      match left with
      | [] => .ok []
      | m :: left => do
        if nl ∈ (← mappingAt sm (← h.token n)) then
          if ← anyEnd h (← h.followpos n) then pruneNLloop h sm cr nl fuel left
          else return m :: (← pruneNLloop h sm cr nl fuel left)
        else return m :: (← pruneNLloop h sm cr nl fuel left)

/-- generator.hpp:455-473 and 494-512: erase the EOL tokens of a list. -/
def eraseEol (tr : Traits) (h : Heap) : List Nat → M (List Nat)
  | [] => .ok []
  | n :: ns => do
    if ← h.endState n then return n :: (← eraseEol tr h ns)
    else if (← h.token n) = tr.eolToken then eraseEol tr h ns
    else return n :: (← eraseEol tr h ns)

/-- generator.hpp:432-476, the loop over `cr_followpos_` of `prune_eol`.  `node` is
the variable `node_`, which the searches overwrite with the last node looked
at. -/
def pruneEolCr (tr : Traits) (h : Heap) (sm : List (List Nat)) (nl : Nat) :
    List Nat → Nat → List Nat → M (Nat × List Nat)
  | [], node, rest => .ok (node, rest)
  | c :: cs, node, rest => do
    if ← h.endState c then pruneEolCr tr h sm nl cs node rest
    else if nl ∈ (← mappingAt sm (← h.token c)) then
      if ← anyEnd h (← h.followpos c) then
        pruneEolCr tr h sm nl cs (rest.getLastD node) (← eraseEol tr h rest)
      else pruneEolCr tr h sm nl cs node rest
    else pruneEolCr tr h sm nl cs node rest

/-- generator.hpp:418-515 `prune_eol` for the node at `iter_` and the list after
it. -/
def pruneEol (tr : Traits) (h : Heap) (sm : List (List Nat)) (cr nl : Nat) (n : Nat)
    (rest : List Nat) : M (List Nat) := do
  let set ← mappingAt sm (← h.token n)
  (if cr ∈ set then do pruneEolCr tr h sm nl (← h.followpos n) n rest
    else .ok (n, rest)) >>= fun (node, rest) =>
  if nl ∈ set then do
    if ← anyEnd h (← h.followpos node) then eraseEol tr h rest else .ok rest
  else .ok rest

/-- generator.hpp:297-322 `prune_eol_clashes`, on the list from `iter_` on. -/
def pruneEolClashes (tr : Traits) (h : Heap) (sm : List (List Nat)) (cr nl : Nat) :
    Nat → List Nat → M (List Nat)
  | _, [] => .ok []
  | 0, _ :: _ => .error .fuel
  | fuel + 1, n :: rest => do
    if ← h.endState n then return n :: (← pruneEolClashes tr h sm cr nl fuel rest)
    else
      let tk ← h.token n
      (if tk = tr.eolToken then pruneNLloop h sm cr nl (rest.length + 1) rest
        else pruneEol tr h sm cr nl n rest) >>= fun rest => do
      return n :: (← pruneEolClashes tr h sm cr nl fuel rest)

/-- generator.hpp:1077-1107 `fill_rhs_list` (equivsets). -/
def fillRhsEquiv (tr : Traits) (h : Heap) (sm : List (List Nat)) : List Nat → M (List Equivset)
  | [] => .ok []
  | n :: ns =>
    match h[n]? with
    | none => .error (.ub "node")
    | some ⟨.fin .., _⟩ => fillRhsEquiv tr h sm ns
    | some ⟨.leaf token g, fp⟩ =>
      if token = tr.nullToken then fillRhsEquiv tr h sm ns
      else
        (if token = tr.bolToken ∨ token = tr.eolToken then .ok [token]
          else mappingAt sm token) >>= fun idx => do
        return ⟨idx, token, g, fp⟩ :: (← fillRhsEquiv tr h sm ns)

/-- generator.hpp:1012-1075 `build_equiv_list`. -/
def buildEquivList (tr : Traits) (h : Heap) (sm : List (List Nat)) (v : List Nat) :
    M (List Equivset) := do
  match splitAll Equivset.intersect Equivset.isEmpty (← fillRhsEquiv tr h sm v) with
  | some l => .ok l
  | none => .error (.ub "equivset::remove ran past the end")

/-- Local variables of `build_dfa` (generator.hpp:194-204) that change while the
states are built.  `seen_sets_` holds the same nodes as `seen_vectors_`. -/
structure DState where
  rows : List Row
  seen : List (List Nat)
  hashes : List Nat
  used : List Nat
  eolSet : List Nat
  deriving DecidableEq, Repr

/-- generator.hpp:996-1000: the nodes in order of first appearance. -/
def dedup : List Nat → List Nat → List Nat
  | acc, [] => acc
  | acc, n :: ns => if n ∈ acc then dedup acc ns else dedup (acc ++ [n]) ns

/-- Equality of the two node sets (`std::set` comparison at 934). -/
def sameSet (a b : List Nat) : Bool := a.all (· ∈ b) && b.all (· ∈ a)

/-- generator.hpp:931-936: position of an equal set, hashes compared first. -/
def findSeen (hash : Nat) (v : List Nat) : List Nat → List (List Nat) → Option Nat
  | h :: hs, s :: ss => if h == hash && sameSet s v then some 0 else (findSeen hash v hs ss).map (· + 1)
  | _, _ => none

/-- generator.hpp:979-994: the first end node of a position list. -/
def firstEnd (h : Heap) : List Nat → M (Option NodeData)
  | [] => .ok none
  | n :: ns =>
    match h[n]? with
    | none => .error (.ub "node")
    | some ⟨.fin a b c d e f g, _⟩ => .ok (some (.fin a b c d e f g))
    | some ⟨.leaf _ _, _⟩ => firstEnd h ns

/-- generator.hpp:946-966: the new row. -/
def newRow (size : Nat) (e : Option NodeData) : Row :=
  match e with
  | some (.fin id userId _ nextDfa pushDfa popDfa g) =>
    [bitEnd + (if g ≠ .no then bitGreedy else 0) + (if popDfa then bitPop else 0),
      id, userId, pushDfa, nextDfa] ++ List.replicate (size - 5) 0
  | _ => List.replicate size 0

/-- Inputs of `build_dfa` that do not change: the heap, the address of each node
(only used for hashing, 999), the alphabet size and the suppression flag. -/
structure DfaEnv where
  tr : Traits
  heap : Heap
  addr : Nat → Nat
  mapping : List (List Nat)
  cr : Nat
  nl : Nat
  size : Nat
  allowSuppressed : Bool

/-- generator.hpp:897-970 `closure` with 972-1001 `closure_ex`; the first component
is the returned state number (`none` for `npos`, returned for an empty set).
State numbers are not truncated to `id_type`: a machine with that many rows is
rejected at 87-93. -/
def closure (E : DfaEnv) (D : DState) (fp : List Nat) : M (Option Nat × DState) :=
  match fp with
  | [] => .ok (none, D)
  | _ => do
    let e ← firstEnd E.heap fp
    let used := match e with
      | some (.fin _ _ u ..) => if E.allowSuppressed then D.used else setInsert u D.used
      | _ => D.used
    let v := dedup [] fp
    let hash := (v.map E.addr).sum % 2 ^ 64
    match findSeen hash v D.hashes D.seen with
    | some i => .ok (some (i + 1), { D with used := used })
    | none => .ok (some (D.seen.length + 1), { D with
        used := used, seen := D.seen ++ [v], hashes := D.hashes ++ [hash],
        rows := D.rows ++ [newRow E.size e] })

/-- `ptr_[col] = value` in row `row`. -/
def setCell (rows : List Row) (row col value : Nat) : M (List Row) :=
  match rows[row]? with
  | none => .error (.ub "row")
  | some r => if col < r.length then .ok (rows.set row (r.set col value))
    else .error (.ub "column")

/-- `ptr_[col]` in row `row`. -/
def getCell (rows : List Row) (row col : Nat) : M Nat :=
  match rows[row]? with
  | none => .error (.ub "row")
  | some r =>
    match r[col]? with
    | some v => .ok v
    | none => .error (.ub "column")

/-- generator.hpp:517-537 `set_transitions`. -/
def setTransitions (E : DfaEnv) (transition index : Nat) : List Nat → DState → M DState
  | [], D => .ok D
  | i :: is, D => do
    if i = E.tr.bolToken then
      setTransitions E transition index is { D with rows := ← setCell D.rows 0 0 transition }
    else if i = E.tr.eolToken then
      setTransitions E transition index is { D with
        rows := ← setCell D.rows (index + 1) ixEol transition,
        eolSet := setInsert (index + 1) D.eolSet }
    else
      setTransitions E transition index is { D with
        rows := ← setCell D.rows (index + 1) (i + ixTransitions) transition }

/-- generator.hpp:256-283: the transitions of state `index`. -/
def buildState (E : DfaEnv) (index : Nat) : List Equivset → DState → M DState
  | [], D => .ok D
  | e :: es, D => do
    let fp ← pruneEolClashes E.tr E.heap E.mapping E.cr E.nl e.followpos.length e.followpos
    let (t, D) ← closure E D fp
    match t with
    | none => buildState E index es D
    | some t =>
      let end_ ← getCell D.rows (index + 1) 0
      if end_ ≠ 0 ∧ end_ / 2 % 2 = 0 ∧ e.greedy = .no then buildState E index es D
      else buildState E index es (← setTransitions E t index e.indexVector D)

/-- generator.hpp:247-284: loop over the states found so far. -/
def buildStates (E : DfaEnv) : Nat → Nat → DState → M DState
  | 0, _, _ => .error .fuel
  | fuel + 1, index, D =>
    match D.seen[index]? with
    | none => .ok D
    | some v => do
      let es ← buildEquivList E.tr E.heap E.mapping v
      buildStates E fuel (index + 1) (← buildState E index es D)

/-- generator.hpp:599-637 `fix_clashes` (uncompressed) for one element of
`eol_set_`; `ptr_` is the row number it points to. -/
def fixClash (cr nl : Nat) (rows : List Row) (eol : Nat) : M (List Row) := do
  let eolState ← getCell rows eol ixEol
  let crState ← getCell rows eol (cr + ixTransitions)
  let nlState ← getCell rows eol (nl + ixTransitions)
  (if crState ≠ 0 then do
      let rows ← setCell rows eol (ixTransitions + cr) 0
      let old ← getCell rows eolState (ixTransitions + cr)
      (if old = 0 then setCell rows eolState (ixTransitions + cr) crState else .ok rows) >>=
        fun rows => .ok (eolState, rows)
    else .ok (eol, rows)) >>= fun (ptr, rows) =>
  if nlState ≠ 0 then do
    let rows ← setCell rows ptr (ixTransitions + nl) 0
    if (← getCell rows eolState (ixTransitions + nl)) = 0 then
      setCell rows eolState (ixTransitions + nl) nlState else .ok rows
  else .ok rows

/-- generator.hpp:655-660: follow `zero_id_` from row `ptr` while the counter `i_`
is below `n`. -/
def followZero (zeroId n : Nat) (rows : List Row) : Nat → Nat → Nat → M Nat
  | 0, ptr, _ => .ok ptr
  | fuel + 1, ptr, i =>
    if i < n then do followZero zeroId n rows fuel (← getCell rows ptr (ixTransitions + zeroId)) (i + 1)
    else .ok ptr

/-- generator.hpp:666-684 and 691-709: hang a chain of `zero_id_` transitions
ending in `id` ↦ `state` below the row `eolState`.  `none`: the `continue` at
669, 694.  Otherwise the new rows, `ptr_` and `i_`. -/
def hangChain (char24 : Bool) (size zeroId id state eolState : Nat) (rows : List Row) :
    M (Option (List Row × Nat × Nat)) := do
  if (← getCell rows eolState (ixTransitions + zeroId)) ≠ 0 then .ok none
  else
    let rows ← setCell rows eolState (ixTransitions + zeroId) rows.length
    let rows := rows ++ [List.replicate size 0]
    (if char24 then do
        let rows' ← setCell rows (rows.length - 1) (ixTransitions + zeroId) rows.length
        .ok (rows' ++ [List.replicate size 0])
      else .ok rows) >>= fun rows => do
    let ptr := rows.length - 1
    .ok (some (← setCell rows ptr (ixTransitions + id) state, ptr, if char24 then 1 else 0))

/-- generator.hpp:640-712 `fix_clashes` (compressed); `i` is the counter `i_`,
which is declared outside the loop and not reset at 655. -/
def fixClashesComp (char24 : Bool) (size cr nl zeroId : Nat) :
    List Nat → Nat → List Row → M (List Row)
  | [], _, rows => .ok rows
  | eol :: eols, i, rows => do
    let n := if char24 then 2 else 1
    let eolState ← getCell rows eol ixEol
    let ptr ← followZero zeroId n rows (n - i) eol i
    let i := Nat.max i n
    let crState ← getCell rows ptr (ixTransitions + cr)
    (if crState ≠ 0 then hangChain char24 size zeroId cr crState eolState rows
      else .ok (some (rows, ptr, i))) >>= fun r =>
    match r with
    | none => fixClashesComp char24 size cr nl zeroId eols i rows
    | some (rows, ptr, i) => do
      let nlState ← getCell rows ptr (ixTransitions + nl)
      (if nlState ≠ 0 then hangChain char24 size zeroId nl nlState eolState rows
        else .ok (some (rows, ptr, i))) >>= fun r =>
      match r with
      | none => fixClashesComp char24 size cr nl zeroId eols i rows
      | some (rows, _, i) => fixClashesComp char24 size cr nl zeroId eols i rows

/-- generator.hpp:215, 220: `*set_mapping_[id].begin()`. -/
def firstClass (sm : List (List Nat)) (id : Nat) : M Nat := do
  match ← mappingAt sm id with
  | [] => .error (.ub "begin() of an empty set")
  | c :: _ => .ok c

/-- Result of `build_dfa`. -/
structure DfaOut where
  lookup : List Nat
  alphabet : Nat
  rows : List Row
  used : List Nat
  classes : List Charset
  deriving DecidableEq, Repr

/-- generator.hpp:188-289 `build_dfa`, first part (206-226): alphabet classes,
lookup table, `cr_id_`, `nl_id_`, `zero_id_`. `lookup_` says whether `_lookup` is
used (`sm_traits::lookup`). -/
def prepareDfa (tr : Traits) (useLookup : Bool) (charsets : CharsetMap) (cr nl : Nat) :
    M (List Charset × List (List Nat) × List Nat × Nat × Nat × Nat) := do
  match partitionCharsets charsets with
  | none => .error (.ub "string_token")
  | some classes =>
    match buildSetMapping 0 classes (List.replicate charsets.length []),
        (if useLookup then buildLookup 0 classes (List.replicate 256 ixDead)
         else some (List.replicate 256 ixDead)) with
    | some mapping, some lk =>
      (if cr ≠ tr.npos then firstClass mapping cr else .ok cr) >>= fun cr' =>
      (if nl ≠ tr.npos then firstClass mapping nl else .ok nl) >>= fun nl' =>
      (if (cr ≠ tr.npos ∨ nl ≠ tr.npos) ∧ tr.compressed then
          match charsets.find? (fun e => e.1 == Token.ofRange 0 0) with
          | none => .error (.ub "dereference of charset_map_.end()")
          | some e => firstClass mapping e.2
        else .ok tr.npos) >>= fun zeroId =>
      .ok (classes, mapping, lk, cr', nl', zeroId)
    | _, _ => .error (.ub "index out of range")

/-- generator.hpp:188-289 `build_dfa`. -/
def buildDfa (tr : Traits) (useLookup allowSuppressed : Bool) (addr : Nat → Nat) (heap : Heap)
    (charsets : CharsetMap) (cr nl : Nat) (root : Tree) (used : List Nat) : M DfaOut := do
  let (classes, mapping, lk, cr, nl, zeroId) ← prepareDfa tr useLookup charsets cr nl
  let size := classes.length + ixTransitions + (if cr = tr.npos ∧ nl = tr.npos then 0 else 1)
  if size > tr.npos then
    .error (.throw "The id_type you have chosen cannot hold the dfa alphabet.")
  else
    let E : DfaEnv := ⟨tr, heap, addr, mapping, cr, nl, size, allowSuppressed⟩
    let (_, D) ← closure E ⟨[List.replicate size 0], [], [], used, []⟩ root.firstpos
    let D ← buildStates E (2 ^ heap.length + 1) 0 D
    (if tr.compressed then fixClashesComp tr.char24 size cr nl zeroId D.eolSet 0 D.rows
      else D.eolSet.foldlM (fixClash cr nl) D.rows) >>= fun rows =>
    .ok ⟨lk, size, rows, D.used, classes⟩

/-- One rule of one lexer state: the corresponding entries of `_regexes`, `_ids`,
`_user_ids`, `_next_dfas`, `_pushes`, `_pops` (rules.hpp). -/
structure Rule where
  regex : List Tok
  id : Nat
  userId : Nat
  nextDfa : Nat
  pushDfa : Nat
  popDfa : Bool
  deriving DecidableEq, Repr

/-- The parts of `basic_rules` read by the generator.  `states` and `features`
have one entry per lexer state. -/
structure Rules where
  states : List (List Rule)
  features : List Nat
  eoi : Nat
  matchZeroLen : Bool
  allowSuppressed : Bool
  deriving DecidableEq, Repr

def Rule.info (r : Rule) (uniqueId : Nat) : RuleInfo :=
  ⟨r.id, r.userId, uniqueId, r.nextDfa, r.pushDfa, r.popDfa⟩

/-- generator.hpp:138-156: the remaining rules of `build_tree`.  (`unique_id_` is
not truncated to `id_type`.) -/
def buildTreeRest (tr : Traits) (seenBol : Bool) : List Rule → PState → Tree → Nat →
    M (PState × Tree × Nat)
  | [], p, root, uid => .ok (p, root, uid)
  | r :: rs, p, root, uid => do
    let (p, rhs) ← p.parse tr r.regex (r.info (uid + 1)) seenBol
    buildTreeRest tr seenBol rs p (.sel root rhs) (uid + 1)

/-- generator.hpp:104-159 `build_tree`. -/
def buildTree (tr : Traits) (seenBol : Bool) (rs : List Rule) (heap : Heap) (uid : Nat) :
    M (PState × Tree × Nat) :=
  match rs with
  | [] => .error (.ub "no rules")
  | r :: rs => do
    let (p, root) ← PState.parse tr ⟨heap, [], tr.npos, tr.npos, []⟩ r.regex
      (r.info (uid + 1)) seenBol
    buildTreeRest tr seenBol rs p root (uid + 1)

/-- generator.hpp:539-561 `check_zero_len`. -/
def checkZeroLen (matchZeroLen : Bool) (heap : Heap) (root : Tree) : M Unit := do
  if matchZeroLen then .ok ()
  else if ← anyEnd heap root.firstpos then
    .error (.throw "The following regex can match zero chars")
  else .ok ()

/-- generator.hpp:563-582 `check_suppressed`. -/
def checkSuppressed (allowSuppressed : Bool) (uniqueId : Nat) (used : List Nat) : M Unit :=
  if allowSuppressed then .ok ()
  else if (List.range uniqueId).all (fun id => (id + 1) ∈ used) then .ok ()
  else .error (.throw "The following regex cannot be matched")

/-- Variables of `build` (generator.hpp:51-55). -/
structure BuildState where
  heap : Heap
  used : List Nat
  uniqueId : Nat
  dfas : List DfaOut
  deriving DecidableEq, Repr

/-- Test of a feature bit. -/
def hasBit (features bit : Nat) : Bool := features / bit % 2 == 1

/-- generator.hpp:60-95: the loop over the lexer states of `build`. -/
def buildLoop (tr : Traits) (useLookup : Bool) (addr : Nat → Nat) (R : Rules) :
    List (List Rule) → List Nat → BuildState → M BuildState
  | [], _, B => .ok B
  | rs :: rss, feats, B => do
    if rs = [] then .error (.throw "Lexer states with no rules are not allowed")
    else
      let seenBol := hasBit (feats.headD 0) 1
      let (p, root, uid) ← buildTree tr seenBol rs B.heap B.uniqueId
      checkZeroLen R.matchZeroLen p.heap root
      let out ← buildDfa tr useLookup R.allowSuppressed addr p.heap p.charsets p.crId p.nlId root
        B.used
      if out.rows.length ≥ tr.npos then
        .error (.throw "The id_type you have chosen cannot hold this many DFA rows.")
      else buildLoop tr useLookup addr R rss feats.tail ⟨p.heap, out.used, uid, B.dfas ++ [out]⟩

/-- generator.hpp:746-762 `create` (state machine version). -/
def createInternals (R : Rules) (dfas : List DfaOut) : Internals :=
  { eoi := R.eoi
    lookup := dfas.map (·.lookup)
    alphabet := dfas.map (·.alphabet)
    features := (R.features.take dfas.length).foldl (· ||| ·) 0 |||
      (if dfas.length > 1 then 16 else 0)
    dfa := dfas.map (·.rows) }

/-- generator.hpp:45-100: everything in `build` before the final `swap`. -/
def buildTemp (tr : Traits) (addr : Nat → Nat) (R : Rules) : M Internals := do
  let B ← buildLoop tr true addr R R.states R.features ⟨[], [], 0, []⟩
  checkSuppressed R.allowSuppressed B.uniqueId B.used
  .ok (createInternals R B.dfas)

/-- generator.hpp:45-102 `build` on a state machine that held `old`: what the
machine holds afterwards and the exception, if any. -/
def build (tr : Traits) (addr : Nat → Nat) (R : Rules) (old : Internals) : Internals × M Unit :=
  match buildTemp tr addr R with
  | .ok new => (new, .ok ())
  | .error e => (old, .error e)

end Lexertl

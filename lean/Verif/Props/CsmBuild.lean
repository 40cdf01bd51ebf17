import Verif.Proofs.CsmBuild
import Verif.Proofs.ReadRules
import Verif.Props.StateTexts
import Verif.Model.Nfa
import Verif.Props.Csm
import Verif.Props.BuildAny
import Verif.Props.Generated

/-
C62: char state machines built by the generator.
-/
namespace Lexertl.Spec

/-- The state in which a char machine starts. -/
def _root_.Lexertl.CDfa.start (npos : Nat) (d : CDfa) (atLine : Bool) : Nat :=
  if atLine = true ∧ d.bol ≠ npos then d.bol else 0

/-- What a state that ends a token says agrees with the rule `r`: id, user id, what is pushed, popped, and the lexer state that
follows. -/
structure Says (npos : Nat) (s : CState) (r : Rule) : Prop where
  id : s.id = r.id
  userId : s.userId = r.userId
  nextDfa : s.nextDfa = r.nextDfa
  pushDfa : s.pushDfa = r.pushDfa
  push : s.pushPop = .push ↔ r.pushDfa ≠ npos
  pop : s.pushPop = .pop ↔ r.pushDfa = npos ∧ r.popDfa = true

end Lexertl.Spec

namespace Lexertl.Props
open Spec Lexertl.Csm

/-- C62.  Building a char state machine gives, for rules of any kind, the machine that `sm_to_csm` makes of the state machine
built from the same rules; and if `build` throws for the state machine, it throws the same for the char state machine.  The one
exception: if there are more rows than `id_type` can count, building a state machine throws, but building a char state machine
may read outside the table (finding 52). -/
theorem C62_direct_build {tr : Traits} (htr : tr.compressed = false) (hnpos : 2 < tr.npos) {R : Rules} (hR : ReadRules tr R)
    (addr : Nat → Nat) :
    (∃ sm csm, buildTemp tr addr R = .ok sm ∧ buildCsm tr addr R = .ok csm ∧ smToCsm tr.npos sm = .ok csm) ∨
    (∃ e, buildTemp tr addr R = .error e ∧ (buildCsm tr addr R = .error e ∨
      (e = .throw "The id_type you have chosen cannot hold this many DFA rows." ∧ ∃ msg, buildCsm tr addr R = .error (.ub msg)))) :=
  CsmBuild.build_direct htr hnpos hR addr

/-- C62.  The char state machine built from a list of rules (greedy, without `$`) accepts in lexer state `i` exactly the texts
that some rule of the state matches, at the start of a line and elsewhere; and the state in which such a text ends says what the
earliest of these rules says. -/
theorem C62_accepts {tr : Traits} (htr : tr.compressed = false) (hnpos : 263 ≤ tr.npos) {R : Rules} {xss : List (List SRule)}
    (hR : RuleSet tr R xss) (hT : TargetsExist tr.npos R) {addr : Nat → Nat} {csm : List CDfa}
    (hb : buildCsm tr addr R = .ok csm) :
    csm.length = xss.length ∧ ∀ (i : Nat) (xs : List SRule) (d : CDfa), xss[i]? = some xs → csm[i]? = some d →
      ∀ (atLine : Bool) (w : List Nat), (∀ c ∈ w, c < 256) →
        ((∃ q s, CPath d (d.start tr.npos atLine) w q ∧ d.states[q]? = some s ∧ s.endState = true) ↔
          ∃ x ∈ xs, LineMatch atLine x.2 (w.map .ch)) ∧
        ∀ q s, CPath d (d.start tr.npos atLine) w q → d.states[q]? = some s → s.endState = true →
          ∃ (j : Nat) (x : SRule), xs[j]? = some x ∧ LineMatch atLine x.2 (w.map .ch) ∧
            (∀ (k : Nat) (y : SRule), k < j → xs[k]? = some y → ¬ LineMatch atLine y.2 (w.map .ch)) ∧
            Says tr.npos s x.1 := by
  rcases CsmBuild.build_direct htr (by omega) hR.readRules addr with ⟨sm, csm', h1, h2, h3⟩ | ⟨e, _, h | ⟨_, _, h⟩⟩
  case inr.inl => rw [h] at hb; cases hb
  case inr.inr => rw [h] at hb; cases hb
  rw [h2] at hb
  cases hb
  obtain ⟨hM, hl⟩ := C14_built_tables hT h1
  obtain ⟨csm', g1, g2, g3⟩ := C37_same_machine hM
  rw [g1] at h3
  cases h3
  refine ⟨by rw [g2, hl, hR.states]; simp, fun i xs d hxs hd atLine w hw => ?_⟩
  obtain ⟨l, rows, row0, b0, a1, a2, a3, a4, a5⟩ := CsmBuild.table_accepts htr hnpos hR h1 hxs
  obtain ⟨k1, ⟨row0', b0', k2, k3, k4⟩, k5, k6, k7⟩ := g3 i l rows d a1 a2 hd
  rw [a3] at k2; cases k2
  rw [a4] at k3; cases k3
  have pos : 0 < d.states.length := by
    obtain ⟨-, row, e, r1, -⟩ := (a5 false [] (by simp)).2 1 (by simpa using TPath.nil 1)
    have := (List.getElem?_eq_some_iff.1 r1).1
    omega
  have hs1 : d.start tr.npos atLine + 1 = if atLine = true ∧ b0 ≠ 0 then b0 else 1 := by
    unfold CDfa.start
    rcases k4 with ⟨q1, q2⟩ | ⟨q1, q2⟩
    · simp [q1, q2]
    · have hne : d.bol ≠ tr.npos := by
        have h5 := k6.few
        obtain ⟨row, b, h6, h7, h8⟩ := (hM.table i l rows a1 a2).1.bol
        dsimp only at h6 h8
        rw [a3] at h6; cases h6
        rw [a4] at h7; cases h7
        omega
      simp only [q1, hne, ne_eq, not_false_eq_true, and_true]
      split <;> omega
  have hs2 : d.start tr.npos atLine < d.states.length := by
    unfold CDfa.start
    split
    · rename_i h
      rcases k6.bol with q | q
      · exact absurd q h.2
      · exact q
    · exact pos
  obtain ⟨p1, p2⟩ := a5 atLine w hw
  rw [← hs1] at p1 p2
  have key : ∀ q, CPath d (d.start tr.npos atLine) w q → ∀ s, d.states[q]? = some s → s.endState = true →
      ∃ (j : Nat) (x : SRule), xs[j]? = some x ∧ LineMatch atLine x.2 (w.map .ch) ∧
        (∀ (k : Nat) (y : SRule), k < j → xs[k]? = some y → ¬ LineMatch atLine y.2 (w.map .ch)) ∧
        Says tr.npos s x.1 := by
    intro q hq s hs he
    obtain ⟨_, row, e, r1, r2, r3⟩ := p2 (q + 1) ((k7 _ w q hs2).1 hq)
    obtain ⟨row', q1, q2, _⟩ := k5 q s hs
    rw [r1] at q1; cases q1
    obtain ⟨e', q3, q4⟩ := q2.endState
    rw [r2] at q3; cases q3
    rcases r3 with ⟨r3, _⟩ | ⟨_, j, x, x1, x2, x3, x4, x5, x6, x7, x8⟩
    · exact absurd r3 (q4.1 he)
    · have e1 : s.id = x.1.id := by have := q2.id; rw [x4] at this; injection this with this; exact this.symm
      have e2 : s.userId = x.1.userId := by have := q2.userId; rw [x5] at this; injection this with this; exact this.symm
      have e3 : s.pushDfa = x.1.pushDfa := by have := q2.pushDfa; rw [x6] at this; injection this with this; exact this.symm
      have e4 : s.nextDfa = x.1.nextDfa := by have := q2.nextDfa; rw [x7] at this; injection this with this; exact this.symm
      obtain ⟨e', z1, z2⟩ := q2.pop
      rw [r2] at z1; cases z1
      exact ⟨j, x, x1, x2, x3, e1, e2, e4, e3, e3 ▸ q2.push, by rw [z2, e3, x8]⟩
  refine ⟨⟨?_, ?_⟩, fun q s hq hs he => key q hq s hs he⟩
  · rintro ⟨q, s, hq, hs, he⟩
    obtain ⟨j, x, x1, x2, _⟩ := key q hq s hs he
    exact ⟨x, List.mem_of_getElem? x1, x2⟩
  · rintro ⟨x, hx, hm⟩
    obtain ⟨b, hb⟩ := p1 x hx hm
    obtain ⟨b1, row, e, r1, r2, r3⟩ := p2 b hb
    obtain ⟨q, rfl⟩ : ∃ q, b = q + 1 := ⟨b - 1, by omega⟩
    have hq : q < d.states.length := by
      have := (List.getElem?_eq_some_iff.1 r1).1
      omega
    refine ⟨q, d.states[q], (k7 _ w q hs2).2 hb, List.getElem?_eq_getElem hq, ?_⟩
    obtain ⟨row', q1, q2, _⟩ := k5 q _ (List.getElem?_eq_getElem hq)
    rw [r1] at q1; cases q1
    obtain ⟨e', q3, q4⟩ := q2.endState
    rw [r2] at q3; cases q3
    rcases r3 with ⟨_, r3⟩ | ⟨r3, _⟩
    · exact absurd hm (r3 x hx)
    · exact q4.2 r3

/-- C62 for programs given as texts: a char state machine built from it accepts in lexer state `i` exactly the texts that match
a regex of that state, and the state in which a text ends says what the earliest of these rules says.  (Greedy rules without
`$`, single byte characters.) -/
theorem C62_texts {E : TokEnv} (hE : TokEnvOk E) (hC : CharsOk E) {tr : Traits} (htr : tr.compressed = false)
    (hmax : E.max + 1 = charsOf tr) (hnpos : 263 ≤ tr.npos) {f : ReFlags} {cs : List Call} {names : List (List Nat)}
    {M : List (List Nat × Re)} {xss : List (List SRule)}
    (h : StateProgram E tr.npos f cs names M xss) (hbol : ∀ xs ∈ xss, ∀ x ∈ xs, ROpt (fun r => r.bolHead = true) x.2)
    (heol : ∀ xs ∈ xss, ∀ x ∈ xs, NoEol x.2)
    (hcount : ∀ xs ∈ xss, (xs.map fun x => setsOf tr x.2).sum + 2 ≤ tr.npos)
    {o : RulesObj} (ho : AllOk E tr (RulesObj.new tr f) cs o) {addr : Nat → Nat} {csm : List CDfa}
    (hb : buildCsm tr addr o.rules = .ok csm) :
    csm.length = names.length ∧ ∀ (i : Nat) (xs : List SRule) (d : CDfa), xss[i]? = some xs → csm[i]? = some d →
      ∀ (atLine : Bool) (w : List Nat), (∀ c ∈ w, c < 256) →
        ((∃ q s, CPath d (d.start tr.npos atLine) w q ∧ d.states[q]? = some s ∧ s.endState = true) ↔
          ∃ x ∈ xs, LineMatch atLine x.2 (w.map .ch)) ∧
        ∀ q s, CPath d (d.start tr.npos atLine) w q → d.states[q]? = some s → s.endState = true →
          ∃ (j : Nat) (x : SRule), xs[j]? = some x ∧ LineMatch atLine x.2 (w.map .ch) ∧
            (∀ (k : Nat) (y : SRule), k < j → xs[k]? = some y → ¬ LineMatch atLine y.2 (w.map .ch)) ∧
            Says tr.npos s x.1 := by
  obtain ⟨o', yss, h1, h2⟩ := InStates.program_run hE hC (by omega) h
  rw [allOk_unique ho h1] at hb
  have hd : ∀ xs ∈ xss, (xs.map fun x => setsOf tr x.2 + 2 * dollarsOf x.2) = xs.map fun x => setsOf tr x.2 := by
    intro xs hxs
    refine List.map_congr_left fun x hx => ?_
    have := heol xs hxs x hx
    cases hx2 : x.2 with
    | none => rfl
    | some e =>
      rw [hx2] at this
      rw [show dollarsOf (some e) = e.dollars from rfl, Lazy.dollars_zero e this]
      rfl
  have hA := InStates.program_anyRules hmax h2 hbol (fun xs hxs => .inl (heol xs hxs)) (by rw [htr]; simp)
    (fun xs hxs => by rw [hd xs hxs]; exact hcount xs hxs)
  have hR := h2.ruleSet hA heol
  obtain ⟨t1, _, t3⟩ := InStates.program_targets (by omega) h
  have hlen : yss.length = names.length := by rw [← t1, ← h2.bare]; simp
  have hT : TargetsExist tr.npos o'.rules := by
    intro rs hrs r hr
    have hl : o'.rules.states.length = names.length := by rw [hR.states, List.length_map, hlen]
    rw [hl]
    rw [hR.states] at hrs
    obtain ⟨ys, y1, rfl⟩ := List.mem_map.1 hrs
    obtain ⟨y, y2, rfl⟩ := List.mem_map.1 hr
    have := t3 (ys.map InStates.bare) (by rw [← h2.bare]; exact List.mem_map_of_mem y1) (InStates.bare y) (List.mem_map_of_mem y2)
    exact ⟨this.1, this.2.1⟩
  obtain ⟨c1, c2⟩ := C62_accepts htr hnpos hR hT hb
  refine ⟨by rw [c1, hlen], fun i xs d hxs hd' atLine w hw => ?_⟩
  rw [← h2.bare, List.getElem?_map] at hxs
  obtain ⟨ys, hys, rfl⟩ := Option.map_eq_some_iff.1 hxs
  obtain ⟨e1, e2⟩ := c2 i ys d hys hd' atLine w hw
  refine ⟨?_, ?_⟩
  · rw [e1]
    constructor
    · rintro ⟨y, hy, hm⟩; exact ⟨InStates.bare y, List.mem_map_of_mem hy, hm⟩
    · rintro ⟨x, hx, hm⟩
      obtain ⟨y, hy, rfl⟩ := List.mem_map.1 hx
      exact ⟨y, hy, hm⟩
  · intro q s hq hs he
    obtain ⟨j, y, y1, y2, y3, y4⟩ := e2 q s hq hs he
    refine ⟨j, InStates.bare y, by rw [List.getElem?_map, y1]; rfl, y2, ?_, y4.1, y4.2, y4.3, y4.4, y4.5, y4.6⟩
    intro k z hk hz
    rw [List.getElem?_map] at hz
    obtain ⟨z', hz', rfl⟩ := Option.map_eq_some_iff.1 hz
    exact y3 k z' hk hz'

/-- C62.  If `build` throws for a char state machine, that machine is as before; if it returns, the machine does not depend on
what it held before, nor on addresses. -/
theorem C62_throw_leaves_destination (tr : Traits) (addr : Nat → Nat) (R : Rules) (old : List CDfa) :
    (∀ e, (buildChar tr addr R old).2 = .error e → (buildChar tr addr R old).1 = old) ∧
    ∀ old', (buildChar tr addr R old).2 = .ok () → (buildChar tr addr R old').2 = .ok () ∧
      (buildChar tr addr R old').1 = (buildChar tr addr R old).1 := by
  unfold buildChar
  cases buildCsm tr addr R <;> simp

/-! ### Findings -/

namespace Ex

/-- A rule matching 256 letters `a`, for machines with `id_type` of 8 bits. -/
def RLong : Rules :=
  ⟨[[⟨[tBegin] ++ List.replicate 256 tA ++ [tEnd], 1, 255, 0, 255, false⟩]], [0], 0, false, false⟩

/-- `ab|ac` -/
def RNfa : Rules := ⟨[[rule [tA, tSet 98 98, ⟨.or_, [], []⟩, tA, tC] 1]], [0], 0, false, false⟩

end Ex

set_option maxRecDepth 200000 in
/-- C62.  Finding 52: the rule `a{256}` and `id_type` of 8 bits.  The row count of the table is tested only after the table was
converted, with a counter of type `id_type` that wraps round. -/
theorem C62_many_rows_ub : isUb (buildCsm Ex.tr8 (fun n => n) Ex.RLong) = true := by decide +kernel

/-- C62.  Finding 53: the machine with `is_dfa` false built from `ab|ac` does not accept `ab`: a second transition on the same
charset replaces the first.  The machine with `is_dfa` true accepts it (`C62_accepts`). -/
theorem C62_nfa_loses_texts : ∃ d, buildNfa Ex.tr (fun n => n) Ex.RNfa = .ok [d] ∧ d.bol = Ex.tr.npos ∧
    (∀ q, ¬ CPath d 0 [97, 98] q) ∧
    ∃ q s, CPath d 0 [97, 99] q ∧ d.states[q]? = some s ∧ s.endState = true := by
  have h : (buildNfa Ex.tr (fun n => n) Ex.RNfa).toOption = some [⟨65535,
      [⟨false, .push, 0, 0, 0, 0, 65535, [(2, [(97, 97)])]⟩, ⟨false, .push, 0, 0, 0, 0, 65535, [(3, [(98, 98)])]⟩,
        ⟨false, .push, 0, 0, 0, 0, 65535, [(3, [(99, 99)])]⟩, ⟨true, .neither, 1, 65535, 65535, 0, 65535, []⟩]⟩] := by
    decide +kernel
  cases h' : buildNfa Ex.tr (fun n => n) Ex.RNfa with
  | error e => rw [h'] at h; cases h
  | ok ds =>
    rw [h'] at h
    injection h with h
    subst h
    refine ⟨_, rfl, rfl, ?_, 3, _, .cons _ _ 2 _ _ _ rfl ⟨_, List.mem_singleton.2 rfl, ?_⟩
      (.cons _ _ 3 _ _ _ rfl ⟨_, List.mem_singleton.2 rfl, ?_⟩ (.nil _)), rfl, rfl⟩
    · intro q hq
      cases hq with
      | cons _ _ t _ s _ hs hg h =>
        cases hs
        obtain ⟨set, m1, m2⟩ := hg
        simp only [List.mem_singleton, Prod.mk.injEq] at m1
        obtain ⟨rfl, rfl⟩ := m1
        cases h with
        | cons _ _ t _ s _ hs hg h =>
          cases hs
          obtain ⟨set, m1, m2⟩ := hg
          simp only [List.mem_singleton, Prod.mk.injEq] at m1
          obtain ⟨rfl, rfl⟩ := m1
          obtain ⟨r, r1, r2⟩ := m2
          simp only [List.mem_singleton] at r1
          subst r1
          exact absurd r2 (by decide)
    · exact ⟨_, List.mem_singleton.2 rfl, by decide⟩
    · exact ⟨_, List.mem_singleton.2 rfl, by decide⟩

/-! ### Examples -/

namespace Ex

theorem targetsBol : TargetsExist tr.npos RBol := by unfold TargetsExist; decide

end Ex

set_option maxRecDepth 20000 in
/-- The hypotheses of `C62_accepts` are met by the rules `^c`, `a`, `[a-b]+`, `c`, `\n`; `c` ends in a state with id 3 at the
start of a line, and elsewhere in a state with id 65534. -/
example : RuleSet Ex.tr Ex.RBol [Ex.rulesBol] ∧ TargetsExist Ex.tr.npos Ex.RBol ∧
    (buildCsm Ex.tr (fun n => n) Ex.RBol).toOption.map (fun csm => csm.map fun d => (d.bol, d.states.map brief)) =
      some [(1,
        [⟨false, 0, [(2, [(97, 97)]), (3, [(98, 98)]), (4, [(99, 99)]), (5, [(10, 10)])]⟩,
         ⟨false, 0, [(2, [(97, 97)]), (3, [(98, 98)]), (5, [(10, 10)]), (6, [(99, 99)])]⟩,
         ⟨true, 1, [(3, [(97, 98)])]⟩, ⟨true, 2, [(3, [(97, 98)])]⟩, ⟨true, 65534, []⟩, ⟨true, 5, []⟩, ⟨true, 3, []⟩])] := by
  refine ⟨Ex.ruleSetBol, Ex.targetsBol, ?_⟩
  decide +kernel

set_option maxRecDepth 20000 in
/-- The hypotheses of `C62_texts` are met by the program of C61, from which char machines are built, one for each lexer state. -/
example : StateProgram Ex.env Ex.tr.npos {} Ex.stateCalls Ex.stateNames [] Ex.stateRules ∧
    (∃ o, AllOk Ex.env Ex.tr (RulesObj.new Ex.tr {}) Ex.stateCalls o) ∧
    (buildCsm Ex.tr (fun n => n) (Ex.runs Ex.stateCalls Ex.obj0).rules).toOption.map (fun csm => csm.map fun d => d.states.length) =
      some [4, 5] := by
  refine ⟨Ex.stateProgram, ?_, ?_⟩
  · exact (C61_program_lexes Ex.envOk Ex.charsOk (by decide) (by decide) Ex.stateProgram (Ex.state_all _ rfl) (Ex.state_all _ rfl)
      (by intro h; cases h) (by decide)).1
  · decide +kernel

set_option maxRecDepth 20000 in
/-- The hypotheses of `C62_direct_build` are met by `a$b*?|^c` and `d`: the machine exists, of several states. -/
example : ReadRules Ex.tr Ex.ROdd ∧ Ex.tr.compressed = false ∧
    (buildCsm Ex.tr (fun n => n) Ex.ROdd).toOption.map (fun csm => csm.map fun d => d.states.length) = some [6] := by
  refine ⟨Ex.readOdd, rfl, ?_⟩
  decide +kernel

end Lexertl.Props

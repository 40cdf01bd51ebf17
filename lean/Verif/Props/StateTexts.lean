import Verif.Proofs.StateProgram
import Verif.Props.Texts

/-
Lexers with several states, given as texts (C61).
-/
namespace Lexertl.Props
open Spec Reading

/-- C61: a program of lexer states, macros and rules, given as texts with a meaning, is
accepted, and the states have the numbers of their order.  If a machine is built from it,
then each call of `lookup`, from whatever state and stack, has the outcome which `Lex`
demands of the expressions, ids and state changes that the texts mean: longest match,
earliest rule, skipped and continued tokens, the next state, and the stack.  (Greedy rules
without `$`.) -/
theorem C61_program_lexes {E : TokEnv} (hE : TokEnvOk E) (hC : CharsOk E) {tr : Traits} (hmax : E.max + 1 = charsOf tr)
    (hnpos : 263 ≤ tr.npos) {f : ReFlags} {cs : List Call} {names : List (List Nat)} {M : List (List Nat × Re)} {xss : List (List SRule)}
    (h : StateProgram E tr.npos f cs names M xss) (hbol : ∀ xs ∈ xss, ∀ x ∈ xs, ROpt (fun r => r.bolHead = true) x.2)
    (heol : ∀ xs ∈ xss, ∀ x ∈ xs, NoEol x.2)
    (hplanes : tr.compressed = true → tr.char24 = true → ∀ xs ∈ xss, ∀ x ∈ xs, ROpt (fun r => r.AllChars fun t => ∀ y ∈ t, FewPlanes y) x.2)
    (hcount : ∀ xs ∈ xss, (xs.map fun x => setsOf tr x.2).sum + 2 ≤ tr.npos) :
    (∃ o, AllOk E tr (RulesObj.new tr f) cs o) ∧
    ∀ o, AllOk E tr (RulesObj.new tr f) cs o →
      (∀ (j : Nat) (name : List Nat), names[j]? = some name → o.stateId tr name = j ∧ o.stateName tr j = some name) ∧
      ∀ addr sm, buildTemp tr addr o.rules = .ok sm →
      ∀ (fl : Flags), (fl.recursive = true ∨ ∀ xs ∈ xss, ∀ x ∈ xs, x.1.popDfa = false) →
      ∀ (inp : List Nat), (∀ c ∈ inp, c < charsOf tr) → ∀ r : Results, r.state < names.length → (∀ e ∈ r.stack, e.1 < names.length) →
      r.second ≤ r.eoi → r.eoi ≤ inp.length → ∀ out : Except Fault Results,
        Returns fl tr.npos (bytesOf tr) sm inp r out ↔
          LexEnv.Lex ⟨xss, tr.npos, 0, fl, inp⟩ { r with first := r.second } r.second out := by
  obtain ⟨o, yss, h1, h2⟩ := InStates.program_run hE hC (by omega) h
  refine ⟨⟨o, h1⟩, ?_⟩
  intro o' ho'
  rw [allOk_unique ho' h1]
  have hlen : yss.length = names.length := by rw [← (InStates.program_targets (by omega) h).1, ← h2.bare]; simp
  have hst : o.states.length = names.length := by rw [h2.named.ok.states, h2.named.names]
  refine ⟨?_, ?_⟩
  · intro j name hj
    have hlt : j < names.length := (List.getElem?_eq_some_iff.1 hj).1
    have := h2.named.small
    rw [← h2.named.names] at hj
    exact ⟨(stateId_iff h2.named.ok (by omega) name j (by omega)).2 hj, by rw [stateName_eq j (by omega)]; exact hj⟩
  · intro addr sm hsm fl hpop inp hinp r hr hs hp he out
    have hd : ∀ xs ∈ xss, (xs.map fun x => setsOf tr x.2 + 2 * dollarsOf x.2) = xs.map fun x => setsOf tr x.2 := by
      intro xs hxs
      refine List.map_congr_left fun x hx => ?_
      have := heol xs hxs x hx
      cases hx2 : x.2 with
      | none => rfl
      | some e =>
        rw [hx2] at this
        rw [show dollarsOf (some e) = e.dollars from rfl, Lazy.dollars_zero e this]
        rfl
    have hA := InStates.program_anyRules hmax h2 hbol (fun xs hxs => .inl (heol xs hxs)) hplanes
      (fun xs hxs => by rw [hd xs hxs]; exact hcount xs hxs)
    have hR := h2.ruleSet hA heol
    have al := h2.alike tr.npos 0 fl inp
    rw [C43_lookup_refines_rules hnpos hR (InStates.program_exist (by omega) h h2 hpop _ inp) hsm hinp hp
      ⟨by show r.state < yss.length; omega, by intro e he; show e.1 < yss.length; have := hs e he; omega, he⟩ out]
    exact ⟨al.lex, al.symm.lex⟩

/-- C61 for one token: in lexer state `i`, if `k` is the end of the longest non-empty text
matched by its rules and the `j`th is the first to match it, has an id (not that of skipped
text) and does not pop, then `lookup` returns this text and the ids, goes to the state the
rule leads to and, if the rule says so, remembers the state to return to. -/
theorem C61_token_and_state {E : TokEnv} (hE : TokEnvOk E) (hC : CharsOk E) {tr : Traits} (hmax : E.max + 1 = charsOf tr)
    (hnpos : 263 ≤ tr.npos) {f : ReFlags} {cs : List Call} {names : List (List Nat)} {M : List (List Nat × Re)} {xss : List (List SRule)}
    (h : StateProgram E tr.npos f cs names M xss) (hbol : ∀ xs ∈ xss, ∀ x ∈ xs, ROpt (fun r => r.bolHead = true) x.2)
    (heol : ∀ xs ∈ xss, ∀ x ∈ xs, NoEol x.2)
    (hplanes : tr.compressed = true → tr.char24 = true → ∀ xs ∈ xss, ∀ x ∈ xs, ROpt (fun r => r.AllChars fun t => ∀ y ∈ t, FewPlanes y) x.2)
    (hcount : ∀ xs ∈ xss, (xs.map fun x => setsOf tr x.2).sum + 2 ≤ tr.npos)
    {o : RulesObj} (ho : AllOk E tr (RulesObj.new tr f) cs o) {addr : Nat → Nat} {sm : Internals} (hsm : buildTemp tr addr o.rules = .ok sm)
    {fl : Flags} (hrec : fl.recursive = true) (hms : fl.multiState = true) {inp : List Nat} (hinp : ∀ c ∈ inp, c < charsOf tr)
    {r : Results} (hr : r.state < names.length) (hs : ∀ e ∈ r.stack, e.1 < names.length) (hp : r.second < r.eoi) (he : r.eoi ≤ inp.length)
    {xs : List SRule} (hxs : xss[r.state]? = some xs) {k j : Nat} {x : SRule}
    (hbest : Best (LineMatch (fl.bol && r.bol)) (xs.map (·.2)) inp r.second r.eoi k j) (hx : xs[j]? = some x)
    (hskip : x.1.id ≠ tr.npos - 1) (h0 : x.1.id ≠ 0) (hpop : x.1.popDfa = false) :
    ∃ r', Returns fl tr.npos (bytesOf tr) sm inp r (.ok r') ∧ r'.first = r.second ∧ r'.second = k ∧ r'.id = x.1.id ∧ r'.userId = x.1.userId ∧
      r'.state = x.1.nextDfa ∧ r'.stack = if x.1.pushDfa = tr.npos then r.stack else (x.1.pushDfa, x.1.id) :: r.stack := by
  have hL := ((C61_program_lexes hE hC hmax hnpos h hbol heol hplanes hcount).2 o ho).2 addr sm hsm fl (.inl hrec) inp hinp r hr hs (by omega) he
  let r1 : Results := ⟨r.id, r.userId, r.second, k, r.eoi, (if fl.bol then (inp[k - 1]? == some 10) else r.bol), x.1.nextDfa,
    if x.1.pushDfa = tr.npos then r.stack else (x.1.pushDfa, x.1.id) :: r.stack⟩
  refine ⟨{ r1 with id := x.1.id, userId := x.1.userId }, (hL _).2 ?_, rfl, rfl, rfl, rfl, rfl, rfl⟩
  refine .token _ r1 _ x k x.1.nextDfa (inp[k - 1]? == some 10) hp (.text xs x k j hxs hx hbest) ?_ hskip ?_
  · simp only [LexEnv.accept, hrec, hms, hpop, r1]
    by_cases hn : x.1.pushDfa = tr.npos
    · simp [hn]
    · simp [hn]
  · rintro (hc | ⟨_, hc, _⟩)
    · exact h0 hc
    · rw [hpop] at hc
      cases hc

/-- C61, with rules that use `$`, as in C35: the outcome is that of `LexAny`. -/
theorem C61_program_lexes_dollar_partial {E : TokEnv} (hE : TokEnvOk E) (hC : CharsOk E) {tr : Traits} (hmax : E.max + 1 = charsOf tr)
    (hnpos : 263 ≤ tr.npos) {f : ReFlags} {cs : List Call} {names : List (List Nat)} {M : List (List Nat × Re)} {xss : List (List SRule)}
    (h : StateProgram E tr.npos f cs names M xss) (hbol : ∀ xs ∈ xss, ∀ x ∈ xs, ROpt (fun r => r.bolHead = true) x.2)
    (heol : ∀ xs ∈ xss, (∀ x ∈ xs, NoEol x.2) ∨ (264 ≤ tr.npos ∧ DollarOk tr (xs.map (·.2))))
    (hplanes : tr.compressed = true → tr.char24 = true → ∀ xs ∈ xss, ∀ x ∈ xs, ROpt (fun r => r.AllChars fun t => ∀ y ∈ t, FewPlanes y) x.2)
    (hcount : ∀ xs ∈ xss, (xs.map fun x => setsOf tr x.2 + 2 * dollarsOf x.2).sum + 2 ≤ tr.npos) :
    ∀ o, AllOk E tr (RulesObj.new tr f) cs o → ∀ addr sm, buildTemp tr addr o.rules = .ok sm →
      ∀ (fl : Flags), (fl.recursive = true ∨ ∀ xs ∈ xss, ∀ x ∈ xs, x.1.popDfa = false) →
      ∀ (inp : List Nat), (∀ c ∈ inp, c < charsOf tr) → ∀ r : Results, r.state < names.length → (∀ e ∈ r.stack, e.1 < names.length) →
      r.second ≤ r.eoi → r.eoi ≤ inp.length → ∀ out : Except Fault Results,
        Returns fl tr.npos (bytesOf tr) sm inp r out ↔
          LexEnv.LexAny ⟨xss, tr.npos, 0, fl, inp⟩ { r with first := r.second } r.second out := by
  obtain ⟨o, yss, h1, h2⟩ := InStates.program_run hE hC (by omega) h
  intro o' ho'
  rw [allOk_unique ho' h1]
  have hlen : yss.length = names.length := by rw [← (InStates.program_targets (by omega) h).1, ← h2.bare]; simp
  intro addr sm hsm fl hpop inp hinp r hr hs hp he out
  have hA := InStates.program_anyRules hmax h2 hbol heol hplanes hcount
  have al := h2.alike tr.npos 0 fl inp
  have B : BuiltAny tr o.rules yss fl inp sm := ⟨hnpos, hA, InStates.program_exist (by omega) h h2 hpop _ inp, ⟨addr, hsm⟩, hinp⟩
  rw [C35_lookup_refines_partial B (fun xs hxs x hx => by
    obtain ⟨_, e, hr, hg, _⟩ := h2.held.each xs hxs x hx
    rw [hr]
    exact hg) hp ⟨by show r.state < yss.length; omega, by intro e he; show e.1 < yss.length; have := hs e he; omega, he⟩ out]
  exact ⟨al.lexAny, al.symm.lexAny⟩

namespace Ex

/-- Comments from `b` to `e`, nested: lexer state `C`. -/
def stateCalls : List Call := [.pushState (chars "C"), .push (chars "a") 1 5, .pushIn (chars "*") (chars "b") none (chars ">C") 6,
  .pushIn (chars "C") (chars "e") (some 2) (chars "<") 7, .pushIn (chars "C,INITIAL") (chars "c") none (chars ".") 8,
  .pushIn (chars "C") (chars "d") (some 3) (chars ">C:INITIAL") 9]

def stateNames : List (List Nat) := [chars "INITIAL", chars "C"]

def stateRules : List (List SRule) :=
  [[ruleOf (one 97) 1 5 0 65535 false, ruleOf (one 98) 0 6 1 0 false, ruleOf (one 99) 0 8 0 65535 false],
   [ruleOf (one 98) 0 6 1 1 false, ruleOf (one 101) 2 7 65535 65535 true, ruleOf (one 99) 0 8 1 65535 false, ruleOf (one 100) 3 9 1 0 false]]

/-- Ids and texts of the next `n` tokens, by a recursive lexer. -/
def recTokens (R : Rules) (inp : List Nat) (n : Nat) : Option (List (Nat × Nat × Nat)) :=
  (calls ⟨fRec, 65535, 1, machine R, inp⟩ 20 n (.mk' 65535 0 inp.length)).map (·.map fun r => (r.id, r.first, r.second))

theorem stateProgram : StateProgram env tr.npos {} stateCalls stateNames [] stateRules :=
  .ruleIn (stateCalls.take 5) _ _ _ _ [1] _ _ (some 3) _ _ _
    (.ruleIn (stateCalls.take 4) _ _ _ _ [1, 0] _ _ none _ _ _
      (.ruleIn (stateCalls.take 3) _ _ _ _ [1] _ _ (some 2) _ _ _
        (.ruleIn (stateCalls.take 2) _ _ _ _ [0, 1] _ _ none _ _ _
          (.rule (stateCalls.take 1) _ _ _ _ _ _ _
            (.state [] _ _ _ _ .nil (by decide) (by decide) (by decide))
            (by unfold TextOk; decide) (means_one 97 (by decide)) rfl (by decide) (by decide))
          .all (by unfold TextOk; decide) (means_one 98 (by decide)) rfl (by decide) (by decide) (.push (chars "C") 1 rfl))
        (.list _ _ (.one _ 1 rfl)) (by unfold TextOk; decide) (means_one 101 (by decide)) rfl (by decide) (by decide) .pop)
      (.list _ _ (.more (chars "C") 1 (chars "INITIAL") [0] rfl (.one _ 0 rfl))) (by unfold TextOk; decide) (means_one 99 (by decide)) rfl
      (by decide) (by decide) .stay)
    (.list _ _ (.one _ 1 rfl)) (by unfold TextOk; decide) (means_one 100 (by decide)) rfl (by decide) (by decide)
    (.pushTo (chars "C") (chars "INITIAL") 1 0 rfl rfl)

theorem state_all (p : Re → Bool) (h : (stateRules.all fun xs => xs.all fun x => x.2.all p) = true) :
    ∀ xs ∈ stateRules, ∀ x ∈ xs, ROpt (fun r => p r = true) x.2 := by
  intro xs hxs x hx
  have := List.all_eq_true.1 (List.all_eq_true.1 h xs hxs) x hx
  cases hx2 : x.2 with
  | none => trivial
  | some r => rw [hx2] at this; exact this

end Ex

/-- The hypotheses of C61 are met: "abcbcbeeea" is lexed as "a", a nested comment, "a"; in
"bdea" the rule for `d` makes INITIAL the state to return to, so that "a" is recognised after
"e". -/
example : StateProgram Ex.env Ex.tr.npos {} Ex.stateCalls Ex.stateNames [] Ex.stateRules ∧
    (∀ xs ∈ Ex.stateRules, ∀ x ∈ xs, ROpt (fun r => r.bolHead = true) x.2) ∧ (∀ xs ∈ Ex.stateRules, ∀ x ∈ xs, NoEol x.2) ∧
    (∀ xs ∈ Ex.stateRules, (xs.map fun x => setsOf Ex.tr x.2).sum + 2 ≤ Ex.tr.npos) ∧ Ex.env.max + 1 = charsOf Ex.tr ∧
    (buildTemp Ex.tr (fun i => i) (Ex.runs Ex.stateCalls Ex.obj0).rules).isOk = true ∧
    Ex.recTokens (Ex.runs Ex.stateCalls Ex.obj0).rules (chars "abcbcbeeea") 3 = some [(1, 0, 1), (2, 1, 9), (1, 9, 10)] ∧
    Ex.recTokens (Ex.runs Ex.stateCalls Ex.obj0).rules (chars "bdea") 2 = some [(3, 0, 2), (1, 2, 4)] :=
  ⟨Ex.stateProgram, Ex.state_all _ rfl, Ex.state_all _ rfl, by decide, by decide, by decide +kernel, by decide +kernel, by decide +kernel⟩

end Lexertl.Props

import Verif.Proofs.LazyStates
import Verif.Props.StateTexts
import Verif.Props.Lazy

/-
Lexers with several states and non-greedy operators, given as texts (C59 and C61).
-/
namespace Lexertl.Props
open Spec Reading

/-- C59 and C61: a program of lexer states, macros and rules with non-greedy operators, given
as texts with a meaning, is accepted, and the states have the numbers of their order.  If a
machine is built from it, then each outcome of a call of `lookup`, from whatever state and
stack, is one that `LexAny` allows for the expressions, ids and state changes that the texts
mean: the token is that of the first rule of the state to match its text; no rule matches a
longer text unless this rule has a non-greedy operator; the next state and the stack are those
of this rule. -/
theorem C59_states_lex_partial {E : TokEnv} (hE : TokEnvOk E) (hC : CharsOk E) {tr : Traits} (hmax : E.max + 1 = charsOf tr)
    (hnpos : 263 ≤ tr.npos) {f : ReFlags} {cs : List Call} {names : List (List Nat)} {M : List (List Nat × Re)} {xss : List (List SRule)}
    (h : LazyStateProgram E tr.npos f cs names M xss) (hbol : ∀ xs ∈ xss, ∀ x ∈ xs, NoBol x.2) (heol : ∀ xs ∈ xss, ∀ x ∈ xs, NoEol x.2)
    (hplanes : tr.compressed = true → tr.char24 = true → ∀ xs ∈ xss, ∀ x ∈ xs, ROpt (fun r => r.AllChars fun t => ∀ y ∈ t, FewPlanes y) x.2)
    (hcount : ∀ xs ∈ xss, (xs.map fun x => setsOf tr x.2).sum + 2 ≤ tr.npos) :
    (∃ o, AllOk E tr (RulesObj.new tr f) cs o) ∧
    ∀ o, AllOk E tr (RulesObj.new tr f) cs o →
      (∀ (j : Nat) (name : List Nat), names[j]? = some name → o.stateId tr name = j ∧ o.stateName tr j = some name) ∧
      ∀ addr sm, buildTemp tr addr o.rules = .ok sm →
      ∀ (fl : Flags), (fl.recursive = true ∨ ∀ xs ∈ xss, ∀ x ∈ xs, x.1.popDfa = false) →
      ∀ (inp : List Nat), (∀ c ∈ inp, c < charsOf tr) → ∀ r : Results, r.state < names.length → (∀ e ∈ r.stack, e.1 < names.length) →
      r.second ≤ r.eoi → r.eoi ≤ inp.length → ∀ out : Except Fault Results,
        Returns fl tr.npos (bytesOf tr) sm inp r out →
          LexEnv.LexAny ⟨xss, tr.npos, 0, fl, inp⟩ { r with first := r.second } r.second out := by
  obtain ⟨o, yss, h1, h2⟩ := LazyStates.program_run hE hC (by omega) h
  refine ⟨⟨o, h1⟩, ?_⟩
  intro o' ho'
  rw [allOk_unique ho' h1]
  have hlen : yss.length = names.length := h2.splits.len.trans (LazyStates.program_targets (by omega) h).1
  have hst : o.states.length = names.length := by rw [h2.named.ok.states, h2.named.names]
  refine ⟨?_, ?_⟩
  · intro j name hj
    have hlt : j < names.length := (List.getElem?_eq_some_iff.1 hj).1
    have := h2.named.small
    rw [← h2.named.names] at hj
    exact ⟨(stateId_iff h2.named.ok (by omega) name j (by omega)).2 hj, by rw [stateName_eq j (by omega)]; exact hj⟩
  · intro addr sm hsm fl hpop inp hinp r hr hs hp he out hret
    have hA := LazyStates.program_anyRules hmax h2 hbol heol hplanes hcount
    have B : BuiltAny tr o.rules yss fl inp sm := ⟨hnpos, hA, LazyStates.program_exist (by omega) h h2 hpop _ inp, ⟨addr, hsm⟩, hinp⟩
    have hL := C35_lookup_allowed_partial B hp
      ⟨by show r.state < yss.length; omega, by intro e he; show e.1 < yss.length; have := hs e he; omega, he⟩ hret
    have hR : LazyStates.Refined ⟨yss, tr.npos, o.rules.eoi, fl, inp⟩ ⟨xss, tr.npos, 0, fl, inp⟩ := ⟨rfl, rfl, rfl, rfl, h2.splits, hbol, heol⟩
    exact hR.lexAny hL

namespace Ex

/-- After `b`, the rule `xa*?b|c` ends a token that `b` began. -/
def lazyStateCalls : List Call := [.pushState (chars "C"), .push (chars "a+") 2 6, .pushIn (chars "INITIAL") (chars "b") none (chars ">C") 5,
  .pushIn (chars "C") (chars "xa*?b|c") (some 1) (chars "<") 7]

def lazyStateRules : List (List SRule) :=
  [[ruleOf (.plus (one 97) false) 2 6 0 65535 false, ruleOf (one 98) 0 5 1 0 false], [ruleOf lazyRe 1 7 65535 65535 true]]

theorem lazyStateProgram : LazyStateProgram env tr.npos {} lazyStateCalls stateNames [] lazyStateRules :=
  .ruleIn (lazyStateCalls.take 3) _ _ _ _ [1] _ _ _ (some 1) _ _ _
    (.ruleIn (lazyStateCalls.take 2) _ _ _ _ [0] _ _ _ none _ _ _
      (.rule (lazyStateCalls.take 1) _ _ _ _ _ _ _ _
        (.state [] _ _ _ _ .nil (by decide) (by decide) (by decide))
        (by unfold TextOk; decide) means_as (.done _ rfl) (by decide) (by decide))
      (.list _ _ (.one _ 0 rfl)) (by unfold TextOk; decide) (means_one 98 (by decide)) (.done _ rfl) (by decide) (by decide) (.push (chars "C") 1 rfl))
    (.list _ _ (.one _ 1 rfl)) (by unfold TextOk; decide) means_lazy (.done _ rfl) (by decide) (by decide) .pop

end Ex

/-- The hypotheses are met: the rule with the non-greedy operator becomes two rules of state
`C`; "aabxaabaabca" is lexed as "aa", "bxaab", "aa", "bc", "a". -/
example : LazyStateProgram Ex.env Ex.tr.npos {} Ex.lazyStateCalls Ex.stateNames [] Ex.lazyStateRules ∧
    (∀ xs ∈ Ex.lazyStateRules, ∀ x ∈ xs, NoBol x.2) ∧ (∀ xs ∈ Ex.lazyStateRules, ∀ x ∈ xs, NoEol x.2) ∧
    (∀ xs ∈ Ex.lazyStateRules, (xs.map fun x => setsOf Ex.tr x.2).sum + 2 ≤ Ex.tr.npos) ∧ Ex.env.max + 1 = charsOf Ex.tr ∧
    (Ex.runs Ex.lazyStateCalls Ex.obj0).rules.states.map (·.map (·.id)) = [[2, 0], [1, 1]] ∧
    (buildTemp Ex.tr (fun i => i) (Ex.runs Ex.lazyStateCalls Ex.obj0).rules).isOk = true ∧
    Ex.recTokens (Ex.runs Ex.lazyStateCalls Ex.obj0).rules (chars "aabxaabaabca") 6 =
      some [(2, 0, 2), (1, 2, 7), (2, 7, 9), (1, 9, 11), (2, 11, 12), (0, 12, 12)] := by
  refine ⟨Ex.lazyStateProgram, ?_, ?_, by decide, by decide, by decide +kernel, by decide +kernel, by decide +kernel⟩
  all_goals
    intro xs hxs x hx
    simp only [Ex.lazyStateRules, List.mem_cons, List.not_mem_nil, or_false] at hxs
    rcases hxs with rfl | rfl
    · simp only [List.mem_cons, List.not_mem_nil, or_false] at hx
      rcases hx with rfl | rfl <;> exact rfl
    · simp only [List.mem_cons, List.not_mem_nil, or_false] at hx
      subst hx
      exact rfl

end Lexertl.Props

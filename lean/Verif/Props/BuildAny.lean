import Verif.Proofs.SuppressG
import Verif.Proofs.Null
import Verif.Props.Build
import Verif.Props.Eol
import Verif.Props.Rules

/-
Properties C13, C28, C29 and C30 for rules of all kinds: with `^` and `$` anywhere and with
non-greedy operators.
-/
namespace Lexertl.Props
open Spec

/-- C13.  The construction ends, whatever the rules: none of the bounds the model puts on
loops is ever reached. -/
theorem C13_build_terminates (tr : Traits) (addr : Nat → Nat) {R : Rules}
    (h : ∀ rs ∈ R.states, ∀ r ∈ rs, FromTokeniser r.regex) (old : Internals) :
    (build tr addr R old).2 ≠ .error .fuel := by
  have h1 : buildTemp tr addr R ≠ .error .fuel := Term.buildTemp_fuel fun rs hrs r hr => by
    obtain ⟨b, e, ts, h1, _, h2, _⟩ := h rs hrs r hr
    exact ⟨e, by rw [h1]; exact List.getLast?_concat, h2⟩
  unfold build
  split
  · simp
  · rename_i e he
    rw [he] at h1
    exact fun h2 => h1 (by simpa using h2)

/-- C13.  So it does for the rules put by any calls into a rules object. -/
theorem C13_texts_terminate {E : TokEnv} (hE : TokEnvOk E) {tr : Traits} (hnp : tr.npos ≠ 0) {flags : ReFlags} {cs : List Call}
    {o : RulesObj} (h : Careful E tr (RulesObj.new tr flags) cs o) (addr : Nat → Nat) (old : Internals) :
    (build tr addr o.rules old).2 ≠ .error .fuel :=
  C13_build_terminates tr addr (obj_fromTokeniser (careful_objOk hE hnp h (new_objOk E tr flags))) old

/-- C13.  With `$` and non-greedy operators: the construction returns or throws, and has no
undefined behaviour. -/
theorem C13_build_defined_partial {tr : Traits} (hnpos : 263 ≤ tr.npos) {R : Rules}
    {xss : List (List SRule)} (hR : AnyRules tr R xss) (addr : Nat → Nat) :
    (∃ sm, buildTemp tr addr R = .ok sm) ∨ ∃ msg, buildTemp tr addr R = .error (.throw msg) := by
  rcases buildTemp_spec tr _ _ addr hnpos R xss hR.states hR.stateOk with ⟨sm, b1, _⟩ | ⟨msg, b1, _⟩
  · exact .inl ⟨sm, b1⟩
  · exact .inr ⟨msg, b1⟩

/-- C28 as `C28_outcomes_partial`, with `$` and non-greedy operators. -/
theorem C28_outcomes_any_partial {tr : Traits} (hnpos : 263 ≤ tr.npos) {R : Rules}
    {xss : List (List SRule)} (hR : AnyRules tr R xss) (addr : Nat → Nat) (old : Internals) :
    (∃ sm, build tr addr R old = (sm, .ok ()) ∧ buildTemp tr addr R = .ok sm ∧ sm.dfa.length = xss.length ∧
      sm.eoi = R.eoi) ∨
    (∃ msg, build tr addr R old = (old, .error (.throw msg)) ∧
      ((msg = msgEmpty ∧ ∃ xs ∈ xss, xs = []) ∨
       (msg = msgZero ∧ R.matchZeroLen = false ∧ ∃ xs ∈ xss, ¬ NoEmpty (xs.map (·.2))) ∨
       msg = msgRows ∨
       (msg = msgSuppressed ∧ R.allowSuppressed = false ∧ ∃ xs ∈ xss, ∃ j, j < xs.length ∧
          ((∀ x ∈ xs, TwoPlanes tr x.2) → ¬ CanWinAny (xs.map (·.2)) j)))) := by
  unfold build
  rcases buildTemp_spec tr _ _ addr hnpos R xss hR.states hR.stateOk with
    ⟨sm, b1, b2, _, b4, _⟩ | ⟨msg, b1, b2⟩
  · left
    exact ⟨sm, by rw [b1], b1, b4, b2⟩
  · right
    refine ⟨msg, by rw [b1], ?_⟩
    rcases b2 with h | ⟨h1, h2, i, xs, j, h3, h4⟩ | h | ⟨h1, h2, i, xs, j, h3, h4, h5⟩
    · exact .inl h
    · refine .inr (.inl ⟨h1, h2, xs, List.mem_of_getElem? h3, fun hne => ?_⟩)
      obtain ⟨x, hx, hm⟩ := (Line.words_nil (hR.sets xs (List.mem_of_getElem? h3)) j).1 h4
      exact hne x.2 (List.mem_map.2 ⟨x, List.mem_of_getElem? hx, rfl⟩) hm
    · exact .inr (.inr (.inl h))
    · exact .inr (.inr (.inr ⟨h1, h2, xs, List.mem_of_getElem? h3, j, h4, fun htwo hw =>
        h5 ((Line.earliest_canWin hR h3 htwo j).2 hw)⟩))

/-- C29, one direction, for rules of any kind: with `match_zero_len` off, `build` returns
only if no rule of any lexer state matches the empty text. -/
theorem C29_built_without_empty {tr : Traits} (hnpos : 2 < tr.npos) {R : Rules} (hR : ReadRules tr R)
    (hz : R.matchZeroLen = false) {addr : Nat → Nat} {old sm : Internals} (h : build tr addr R old = (sm, .ok ())) :
    ∀ rs ∈ R.states, ∀ r ∈ rs, (∃ e, Denotes r.regex e) ∧ ∀ e, Denotes r.regex e → ¬ RMatches e [] := by
  have hb : buildTemp tr addr R = .ok sm := by
    unfold build at h
    split at h
    · rename_i heq
      injection h with h
      rw [heq, h]
    · cases h
  intro rs hrs r hr
  exact ⟨C44_built_only_if_in_grammar hR.token hb rs hrs r hr, (Null.buildTemp hnpos hR addr).1 ⟨sm, hb⟩ hz rs hrs r hr⟩

/-- C29, other direction, for rules of any kind: the zero-length exception is thrown only if
the flag is off and some rule does match the empty text. -/
theorem C29_zero_length_exception {tr : Traits} (hnpos : 2 < tr.npos) {R : Rules} (hR : ReadRules tr R)
    {addr : Nat → Nat} {old sm : Internals} (h : build tr addr R old = (sm, .error (.throw msgZero))) :
    R.matchZeroLen = false ∧ ∃ rs ∈ R.states, ∃ r ∈ rs, ∃ e, Denotes r.regex e ∧ RMatches e [] := by
  refine (Null.buildTemp hnpos hR addr).2 ?_
  unfold build at h
  split at h
  · cases h
  · rename_i e he
    injection h with _ h
    injection h with h
    rw [he, h]

/-- C29, both directions, for rules given to a rules object by any calls. -/
theorem C29_texts {E : TokEnv} (hE : TokEnvOk E) {tr : Traits} (hmax : E.max + 1 = charsOf tr) (hnpos : 2 < tr.npos)
    {flags : ReFlags} {cs : List Call} {o : RulesObj} (h : Careful E tr (RulesObj.new tr flags) cs o)
    (hc : ∀ rs ∈ o.states, (rs.map fun r => (r.regex.map (charsetsOf tr)).sum).sum + 2 ≤ tr.npos)
    (addr : Nat → Nat) (old : Internals) :
    (∀ sm, build tr addr o.rules old = (sm, .ok ()) → o.flags.matchZeroLen = false →
      ∀ rs ∈ o.states, ∀ r ∈ rs, (∃ e, Denotes r.regex e) ∧ ∀ e, Denotes r.regex e → ¬ RMatches e []) ∧
    (∀ sm, build tr addr o.rules old = (sm, .error (.throw msgZero)) →
      o.flags.matchZeroLen = false ∧ ∃ rs ∈ o.states, ∃ r ∈ rs, ∃ e, Denotes r.regex e ∧ RMatches e []) := by
  have hR := Null.readRules hmax (careful_objOk hE (by omega) h (new_objOk E tr flags)) hc
  exact ⟨fun sm hb hz => C29_built_without_empty hnpos hR hz hb, fun sm hb => C29_zero_length_exception hnpos hR hb⟩

/-- C29, consequence: with `match_zero_len` off and rules without anchors, over any character
type, `lookup` on a built machine never returns an empty token.  (The no-match token has one
character, if the lexer was told to advance.) -/
theorem C29_no_empty_tokens {tr : Traits} (hnpos : 263 ≤ tr.npos) {R : Rules} (hR : ReadRules tr R)
    (hanc : ∀ rs ∈ R.states, ∀ r ∈ rs, ∀ t ∈ r.regex, t.type ≠ .bol ∧ t.type ≠ .eol) (hz : R.matchZeroLen = false)
    {addr : Nat → Nat} {old sm : Internals} (h : build tr addr R old = (sm, .ok ())) {f : Flags} {inp : List Nat}
    (hinp : bytesOf tr = 1 → ∀ c ∈ inp, c < 256) {r r' : Results}
    (hret : Returns f tr.npos (bytesOf tr) sm inp r (.ok r')) (heoi : r'.id ≠ R.eoi)
    (hnone : r'.id ≠ tr.npos ∨ f.advance = true) : r'.first < r'.second := by
  have hb : buildTemp tr addr R = .ok sm := by
    unfold build at h
    split at h
    · rename_i heq
      injection h with h
      rw [heq, h]
    · cases h
  obtain ⟨h1, h2⟩ := Null.starts hnpos hR hz hanc hb (C44_built_only_if_in_grammar hR.token hb)
  obtain ⟨_, n, hn⟩ := hret
  exact Null.nextLoop_nonempty h1 hinp (by rw [h2]; exact heoi) hnone n (Nat.le_refl _) hn

/-- The hypotheses are met: `b[a-c]*?c` and two more rules. -/
example : (∀ rs ∈ Ex.RLazy.states, ∀ r ∈ rs, ∀ t ∈ r.regex, t.type ≠ .bol ∧ t.type ≠ .eol) ∧
    (∃ sm, build Ex.tr (fun n => n) Ex.RLazy ⟨7, [], [], 0, []⟩ = (sm, .ok ())) := by
  refine ⟨by decide, ?_⟩
  have := Ex.machine_ok (R := Ex.RLazy) (by decide +kernel)
  exact ⟨_, by unfold build; rw [this]⟩

/-- C29, consequence, with non-greedy operators and `$`: with `match_zero_len` off, `lookup`
returns no empty token unless a rule matches nothing in front of the end of a line. -/
theorem C29_no_empty_tokens_any_partial {tr : Traits} {R : Rules} {xss : List (List SRule)} {f : Flags} {inp : List Nat}
    {sm : Internals} (B : BuiltAny tr R xss f inp sm) (hz : R.matchZeroLen = false)
    (hno : ∀ xs ∈ xss, ∀ x ∈ xs, ¬ RMatches x.2 [.eol] ∧ ¬ RMatches x.2 [.bol, .eol]) {r r' : Results}
    (hp : r.second ≤ r.eoi) (hr : ROk ⟨xss, tr.npos, R.eoi, f, inp⟩ r)
    (hret : Returns f tr.npos (bytesOf tr) sm inp r (.ok r')) (heoi : r'.id ≠ R.eoi)
    (hnone : r'.id ≠ tr.npos ∨ f.advance = true) : r'.first < r'.second := by
  have hne : ∀ xs ∈ xss, NoEmpty (xs.map (·.2)) := by
    obtain ⟨addr, hb⟩ := B.built
    rcases buildTemp_spec tr _ _ addr B.wide R xss B.rules.states B.rules.stateOk with
      ⟨sm', b1, _, _, _, _, b6, _⟩ | ⟨msg, b1, b2⟩
    · intro xs hxs e he hm
      obtain ⟨x, hx, rfl⟩ := List.mem_map.1 he
      obtain ⟨i, hi⟩ := List.getElem?_of_mem hxs
      obtain ⟨j, hj⟩ := List.getElem?_of_mem hx
      rcases b6 i xs hi with h1 | h1
      · rw [hz] at h1; cases h1
      · exact h1 ⟨j, (Line.words_nil (B.rules.sets xs hxs) j).2 ⟨x, hj, hm⟩⟩
    · rw [b1] at hb; cases hb
  exact Null.lex_nonempty (E := ⟨xss, tr.npos, R.eoi, f, inp⟩) hne hno (C35_lookup_allowed_partial B hp hr hret)
    (Nat.le_refl _) rfl heoi hnone

/-- C30, one direction, with `$` and non-greedy operators: with `allow_suppressed_rules` off,
`build` returns only if every rule is the first to match some text. -/
theorem C30_built_without_suppressed_any_partial {tr : Traits} (hnpos : 263 ≤ tr.npos) {R : Rules}
    {xss : List (List SRule)} (hR : AnyRules tr R xss) (htwo : ∀ xs ∈ xss, ∀ x ∈ xs, TwoPlanes tr x.2)
    (hs : R.allowSuppressed = false) {addr : Nat → Nat}
    {old sm : Internals} (h : build tr addr R old = (sm, .ok ())) :
    ∀ xs ∈ xss, ∀ j, j < xs.length → CanWinAny (xs.map (·.2)) j := by
  unfold build at h
  rcases buildTemp_spec tr _ _ addr hnpos R xss hR.states hR.stateOk with
    ⟨sm', b1, _, _, _, _, _, b7, _⟩ | ⟨msg, b1, b2⟩
  · intro xs hxs j hj
    obtain ⟨i, hi⟩ := List.getElem?_of_mem hxs
    rcases b7 with h1 | h1
    · rw [hs] at h1; cases h1
    · exact (Line.earliest_canWin hR hi (htwo xs hxs) j).1 (h1 i xs j hi hj)
  · rw [b1] at h; cases h

/-- C30, other direction, with `$` and non-greedy operators: the exception for suppressed
rules is thrown only if the flag is off and some rule is the first to match no text. -/
theorem C30_suppressed_exception_any_partial {tr : Traits} (hnpos : 263 ≤ tr.npos) {R : Rules}
    {xss : List (List SRule)} (hR : AnyRules tr R xss) (htwo : ∀ xs ∈ xss, ∀ x ∈ xs, TwoPlanes tr x.2)
    {addr : Nat → Nat} {old sm : Internals} (h : build tr addr R old = (sm, .error (.throw msgSuppressed))) :
    R.allowSuppressed = false ∧ ∃ xs ∈ xss, ∃ j, j < xs.length ∧ ¬ CanWinAny (xs.map (·.2)) j := by
  rcases C28_outcomes_any_partial hnpos hR addr old with ⟨sm', h1, _⟩ | ⟨msg, h1, h2⟩
  · rw [h] at h1; cases h1
  · rw [h] at h1
    simp only [Prod.mk.injEq, Except.error.injEq, Fault.throw.injEq] at h1
    obtain ⟨_, rfl⟩ := h1
    rcases h2 with ⟨h2, _⟩ | ⟨h2, _⟩ | h2 | ⟨_, h2⟩
    · exact absurd h2 (by decide)
    · exact absurd h2 (by decide)
    · exact absurd h2 (by decide)
    · obtain ⟨h2, xs, h3, j, h4, h5⟩ := h2
      exact ⟨h2, xs, h3, j, h4, h5 (htwo xs h3)⟩

namespace Ex

theorem fromTokeniser {ts : List Tok} (h : ts.all (fun t => t.type == .charset || t.type == .bol || t.type == .eol ||
    (t.type == .azeroormore || t.type == .zeroormore || t.type == .oneormore || t.type == .or_)) = true) (id : Nat) : FromTokeniser (rule ts id).regex := by
  rw [List.all_eq_true] at h
  refine ⟨tBegin, tEnd, ts, rfl, rfl, rfl, ?_, ?_⟩
  · intro t ht
    have := h t ht
    obtain ⟨ty, ex, str⟩ := t
    simp only [Bool.or_eq_true, beq_iff_eq] at this
    rcases this with ((h | h) | h) | ((h | h) | h) | h <;> cases h
    · exact .inr (.inl rfl)
    · exact .inr (.inr (.inl rfl))
    · exact .inr (.inr (.inr (.inl rfl)))
    · exact .inr (.inr (.inr (.inr (.inr (.inr ⟨_, _, .astar _ _ (.chars [])⟩)))))
    · exact .inr (.inr (.inr (.inr (.inr (.inr ⟨_, _, .star _ _ (.chars [])⟩)))))
    · exact .inr (.inr (.inr (.inr (.inr (.inr ⟨_, _, .plus _ _ (.chars [])⟩)))))
    · exact .inl rfl
  · intro u v huv
    have : u.countP (·.type == .closeparen) = 0 := by
      rw [List.countP_eq_zero]
      intro t ht hc
      have h2 := h t (by rw [huv]; exact List.mem_append_left _ ht)
      obtain ⟨ty, ex, str⟩ := t
      simp only [beq_iff_eq] at hc
      subst hc
      cases h2
    omega

/-- `a$b*?|^c`: `$` in the middle, a non-greedy operator, `^` in an alternative. -/
def tsOdd : List Tok := [tSet 97 97, tEol, tSet 98 98, ⟨.azeroormore, [], []⟩, ⟨.or_, [], []⟩, ⟨.bol, [], []⟩, tSet 99 99]
def ROdd : Rules := ⟨[[rule tsOdd 1, rule [tSet 100 100] 2]], [3], 0, false, false⟩
/-- the same followed by `b*?` -/
def ROddZ : Rules := ⟨[[rule tsOdd 1, rule [tSet 98 98, ⟨.azeroormore, [], []⟩] 2]], [3], 0, false, false⟩

theorem readOdd : ReadRules tr ROdd where
  token := by
    intro rs hrs r hr
    simp only [ROdd, List.mem_singleton] at hrs
    subst hrs
    simp only [List.mem_cons, List.not_mem_nil, or_false] at hr
    rcases hr with rfl | rfl
    · exact fromTokeniser (by decide) 1
    · exact fromTokeniser (by decide) 2
  sets := by decide
  count := by decide

theorem readOddZ : ReadRules tr ROddZ where
  token := by
    intro rs hrs r hr
    simp only [ROddZ, List.mem_singleton] at hrs
    subst hrs
    simp only [List.mem_cons, List.not_mem_nil, or_false] at hr
    rcases hr with rfl | rfl
    · exact fromTokeniser (by decide) 1
    · exact fromTokeniser (by decide) 2
  sets := by decide
  count := by decide

end Ex

/-- The hypotheses of C29 are met by rules with `$` and `^` in the middle and non-greedy
operators, which are built; with the rule `b*?` the exception is thrown. -/
example : ReadRules Ex.tr Ex.ROdd ∧ ReadRules Ex.tr Ex.ROddZ ∧
    (∃ sm, build Ex.tr (fun n => n) Ex.ROdd ⟨7, [], [], 0, []⟩ = (sm, .ok ())) ∧
    thrown (build Ex.tr (fun n => n) Ex.ROddZ ⟨7, [], [], 0, []⟩).2 = some msgZero := by
  refine ⟨Ex.readOdd, Ex.readOddZ, ?_, by decide +kernel⟩
  have := Ex.machine_ok (R := Ex.ROdd) (by decide +kernel)
  exact ⟨_, by unfold build; rw [this]⟩

/-- The condition of `C29_texts` is met by the object made by `Ex.ruleCalls`. -/
example : Careful Ex.env Ex.tr (RulesObj.new Ex.tr {}) Ex.ruleCalls Ex.obj ∧ Ex.env.max + 1 = charsOf Ex.tr ∧
    (∀ rs ∈ Ex.obj.states, (rs.map fun r => (r.regex.map (charsetsOf Ex.tr)).sum).sum + 2 ≤ Ex.tr.npos) :=
  ⟨Ex.careful, rfl, by decide +kernel⟩

/-- The hypotheses of the theorems about `$` and non-greedy operators are met; behind
`b[a-c]*?c` the rule `bc` is suppressed, and reported as such. -/
example : AnyRules Ex.tr Ex.RDollar [Ex.rulesDollar] ∧ AnyRules Ex.tr Ex.RLazy [Ex.rulesLazy] ∧
    (∀ xs ∈ [Ex.rulesDollar], ∀ x ∈ xs, TwoPlanes Ex.tr x.2) ∧
    (∀ xs ∈ [Ex.rulesDollar], ∀ x ∈ xs, ¬ RMatches x.2 [.eol] ∧ ¬ RMatches x.2 [.bol, .eol]) ∧
    thrown (build Ex.tr (fun n => n) ⟨[[Ex.rLazy.1, Ex.rule [Ex.tSet 98 98, Ex.tC] 2]], [0], 0, false, false⟩ ⟨7, [], [], 0, []⟩).2 =
      some msgSuppressed := by
  refine ⟨Ex.anyDollar, Ex.anyLazy, ?_, ?_, by decide +kernel⟩
  · simp only [forall_eq, Ex.rulesDollar, List.mem_cons, List.not_mem_nil, or_false, forall_eq_or_imp]
    simp only [TwoPlanes, Re.AllChars]
    decide
  · simp only [forall_eq, Ex.rulesDollar, List.mem_cons, List.not_mem_nil, or_false, forall_eq_or_imp]
    refine ⟨?_, ?_, ?_⟩
    · refine ⟨fun h => ?_, fun h => ?_⟩
      · obtain ⟨u, h1, h2⟩ := dollar_iff.1 h
        rw [Ex.chr_iff.1 h2] at h1
        simp at h1
      · obtain ⟨u, h1, h2⟩ := dollar_iff.1 h
        rw [Ex.chr_iff.1 h2] at h1
        simp at h1
    · simp [Ex.chr_iff]
    · simp [Ex.chr_iff]

/-- The exception of `C29_no_empty_tokens_any_partial` is there: `a*$` is accepted although
`match_zero_len` is off, and at an empty line every call returns the empty token at the same
place: the input is never used up. -/
theorem C29_dollar_empty_token :
    Denotes (Ex.rule [Ex.tA, ⟨.zeroormore, [], []⟩, Ex.tEol] 1).regex (some (.seq (.star (.chars [(97, 97)]) false) .eol)) ∧
    ¬ RMatches (some (.seq (.star (.chars [(97, 97)]) false) .eol)) [] ∧
    (∃ sm, build Ex.tr (fun n => n) ⟨[[Ex.rule [Ex.tA, ⟨.zeroormore, [], []⟩, Ex.tEol] 1]], [2], 0, false, false⟩ ⟨7, [], [], 0, []⟩ = (sm, .ok ()) ∧
      ∃ r', Returns Ex.fAll 65535 1 sm [10] (.mk' 65535 0 1) (.ok r') ∧ r'.id = 1 ∧ r'.first = 0 ∧ r'.second = 0 ∧
        Returns Ex.fAll 65535 1 sm [10] r' (.ok r')) := by
  refine ⟨?_, ?_, ?_⟩
  · exact .re Ex.tBegin Ex.tEnd [Ex.tA, ⟨.zeroormore, [], []⟩, Ex.tEol] _ rfl rfl
      (.alt1 _ _ (.seq [Ex.tA, ⟨.zeroormore, [], []⟩] [Ex.tEol] _ _ (.seq1 _ _ (.postfix_ [Ex.tA] _ _ _ (.charset _ _) (.star _ _ _)))
        (.item _ _ (.eol _ _))))
  · intro h
    obtain ⟨u, h1, _⟩ := dollar_iff.1 h
    simp at h1
  · have hm := Ex.machine_ok (R := ⟨[[Ex.rule [Ex.tA, ⟨.zeroormore, [], []⟩, Ex.tEol] 1]], [2], 0, false, false⟩) (by decide +kernel)
    refine ⟨_, by unfold build; rw [hm], ?_⟩
    have key : ∀ {o : M Results} {r' : Results}, o.toOption = some r' → o = .ok r' := by
      intro o r' h
      cases o with
      | error e => simp [Except.toOption] at h
      | ok a => simp [Except.toOption] at h; rw [h]
    refine ⟨⟨1, 65535, 0, 0, 1, true, 0, []⟩, ⟨by simp, 5, key (by decide +kernel)⟩, rfl, rfl, rfl, by simp, 5, key (by decide +kernel)⟩

end Lexertl.Props

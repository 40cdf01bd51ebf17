import Verif.Proofs.Suppress
import Verif.Props.Example

/-
Properties C13, C28, C29 and C30: `generator::build` terminates, does not depend on
where nodes are allocated, changes its destination only on success, and rejects
exactly the rule sets with zero-length or suppressed rules.
-/
namespace Lexertl.Props
open Spec

/-- C28.  If `build` throws (or is undefined), the destination is unchanged. -/
theorem C28_throw_leaves_destination (tr : Traits) (addr : Nat → Nat) (R : Rules) (old sm : Internals) (e : Fault)
    (h : build tr addr R old = (sm, .error e)) : sm = old := by
  unfold build at h
  split at h
  · cases h
  · injection h with h; exact h.symm

/-- C28.  If `build` returns, what the destination holds does not depend on what it held
before (nor on node addresses). -/
theorem C28_success_replaces_destination (tr : Traits) (addr addr' : Nat → Nat) (R : Rules) (old sm : Internals)
    (h : build tr addr R old = (sm, .ok ())) (old' : Internals) : build tr addr' R old' = (sm, .ok ()) := by
  unfold build at h ⊢
  rw [buildTemp_addr tr addr' addr]
  split at h
  · exact h
  · cases h

/-- C28.  For rule sets in the modelled fragment `build` has one of two outcomes: it
returns and the destination is a machine with one table per lexer state that implements
the rules (`C43_lookup_refines_rules`), or it throws one of four exceptions for the
stated reason; the destination is then what it was. -/
theorem C28_outcomes_partial {tr : Traits} (hnpos : 263 ≤ tr.npos) {R : Rules}
    {xss : List (List SRule)} (hR : RuleSet tr R xss) (addr : Nat → Nat) (old : Internals) :
    (∃ sm, build tr addr R old = (sm, .ok ()) ∧ buildTemp tr addr R = .ok sm ∧ sm.dfa.length = xss.length ∧
      sm.eoi = R.eoi) ∨
    (∃ msg, build tr addr R old = (old, .error (.throw msg)) ∧
      ((msg = msgEmpty ∧ ∃ xs ∈ xss, xs = []) ∨
       (msg = msgZero ∧ R.matchZeroLen = false ∧ ∃ xs ∈ xss, ¬ NoEmpty (xs.map (·.2))) ∨
       msg = msgRows ∨
       (msg = msgSuppressed ∧ R.allowSuppressed = false ∧ ∃ xs ∈ xss, ∃ j, j < xs.length ∧
          ((∀ x ∈ xs, TwoPlanes tr x.2) → ¬ CanWin (xs.map (·.2)) j)))) := by
  unfold build
  rcases buildTemp_spec tr _ _ addr hnpos R xss hR.states hR.stateOk with
    ⟨sm, b1, b2, _, b4, _⟩ | ⟨msg, b1, b2⟩
  · left
    exact ⟨sm, by rw [b1], b1, b4, b2⟩
  · right
    refine ⟨msg, by rw [b1], ?_⟩
    rcases b2 with h | ⟨h1, h2, i, xs, j, h3, h4⟩ | h | ⟨h1, h2, i, xs, j, h3, h4, h5⟩
    · exact .inl h
    · refine .inr (.inl ⟨h1, h2, xs, List.mem_of_getElem? h3, fun hne => ?_⟩)
      obtain ⟨x, hx, hm⟩ := (words_nil (hR.decodes (List.mem_of_getElem? h3) (inp := []) (by simp)) j).1 h4
      exact hne x.2 (List.mem_map.2 ⟨x, List.mem_of_getElem? hx, rfl⟩) hm
    · exact .inr (.inr (.inl h))
    · exact .inr (.inr (.inr ⟨h1, h2, xs, List.mem_of_getElem? h3, j, h4, fun htwo hw =>
        h5 ((earliest_canWin hR h3 htwo j).2 hw)⟩))

/-- C29, one direction: with `match_zero_len` off, `build` returns only if no rule of any
lexer state matches the empty text. -/
theorem C29_built_without_empty_partial {tr : Traits} (hnpos : 263 ≤ tr.npos) {R : Rules}
    {xss : List (List SRule)} (hR : RuleSet tr R xss) (hz : R.matchZeroLen = false) {addr : Nat → Nat}
    {old sm : Internals} (h : build tr addr R old = (sm, .ok ())) : ∀ xs ∈ xss, NoEmpty (xs.map (·.2)) := by
  unfold build at h
  rcases buildTemp_spec tr _ _ addr hnpos R xss hR.states hR.stateOk with
    ⟨sm', b1, _, _, _, _, b6, _⟩ | ⟨msg, b1, b2⟩
  · intro xs hxs e he hm
    obtain ⟨x, hx, rfl⟩ := List.mem_map.1 he
    obtain ⟨i, hi⟩ := List.getElem?_of_mem hxs
    obtain ⟨j, hj⟩ := List.getElem?_of_mem hx
    rcases b6 i xs hi with h1 | h1
    · rw [hz] at h1; cases h1
    · exact h1 ⟨j, (words_nil (hR.decodes hxs (inp := []) (by simp)) j).2 ⟨x, hj, hm⟩⟩
  · rw [b1] at h; cases h

/-- C29, other direction: the zero-length exception is thrown only if the flag is off and
some rule does match the empty text. -/
theorem C29_zero_length_exception_partial {tr : Traits} (hnpos : 263 ≤ tr.npos) {R : Rules}
    {xss : List (List SRule)} (hR : RuleSet tr R xss) {addr : Nat → Nat} {old sm : Internals}
    (h : build tr addr R old = (sm, .error (.throw msgZero))) :
    R.matchZeroLen = false ∧ ∃ xs ∈ xss, ∃ x ∈ xs, RMatches x.2 [] := by
  rcases C28_outcomes_partial hnpos hR addr old with ⟨sm', h1, _⟩ | ⟨msg, h1, h2⟩
  · rw [h] at h1; cases h1
  · rw [h] at h1
    simp only [Prod.mk.injEq, Except.error.injEq, Fault.throw.injEq] at h1
    obtain ⟨_, rfl⟩ := h1
    rcases h2 with ⟨h2, _⟩ | ⟨_, h2, xs, h3, h4⟩ | h2 | ⟨h2, _⟩
    · exact absurd h2 (by decide)
    · refine ⟨h2, xs, h3, Classical.byContradiction fun hn => h4 fun e he hm => ?_⟩
      obtain ⟨x, hx, rfl⟩ := List.mem_map.1 he
      exact hn ⟨x, hx, hm⟩
    · exact absurd h2 (by decide)
    · exact absurd h2 (by decide)

/-- C29, consequence: with `match_zero_len` off, `lookup` on a built machine never returns
an empty token. -/
theorem C29_no_empty_tokens_partial {tr : Traits} (hnpos : 263 ≤ tr.npos) {R : Rules}
    {xss : List (List SRule)} (hR : RuleSet tr R xss) (hz : R.matchZeroLen = false) {addr : Nat → Nat}
    {old sm : Internals} (h : build tr addr R old = (sm, .ok ())) {f : Flags} {inp : List Nat}
    (hex : StatesExist ⟨xss, tr.npos, R.eoi, f, inp⟩) (hinp : ∀ c ∈ inp, c < charsOf tr) {r r' : Results}
    (hp : r.second ≤ r.eoi) (hr : ROk ⟨xss, tr.npos, R.eoi, f, inp⟩ r)
    (hret : Returns f tr.npos (bytesOf tr) sm inp r (.ok r')) (heoi : r'.id ≠ R.eoi)
    (hnone : r'.id ≠ tr.npos ∨ f.advance = true) : r'.first < r'.second := by
  have hne := C29_built_without_empty_partial hnpos hR hz h
  have hsm : buildTemp tr addr R = .ok sm := by
    unfold build at h
    split at h
    · rename_i heq
      injection h with h
      rw [heq, h]
    · cases h
  have I := build_impl hnpos hR hsm f inp hinp
  obtain ⟨_, n, hn⟩ := hret
  have hL := nextLoop_sound I hex n { r with first := r.second } r.second ⟨hr.state, hr.stack, hr.eoi⟩ hp (by
    unfold lookupFuel at hn
    intro h
    rw [show nextLoop f tr.npos (bytesOf tr) sm inp n _ _ _ = _ from h] at hn
    cases hn)
  unfold lookupFuel at hn
  rw [show nextLoop f tr.npos (bytesOf tr) sm inp n { r with first := r.second } r.second r.second = _ from hn] at hL
  exact lex_nonempty (E := ⟨xss, tr.npos, R.eoi, f, inp⟩) hne hL (by simp) rfl heoi hnone

/-- C30, one direction: with `allow_suppressed_rules` off, `build` returns only if every
rule can win. -/
theorem C30_built_without_suppressed_partial {tr : Traits} (hnpos : 263 ≤ tr.npos) {R : Rules}
    {xss : List (List SRule)} (hR : RuleSet tr R xss) (htwo : ∀ xs ∈ xss, ∀ x ∈ xs, TwoPlanes tr x.2)
    (hs : R.allowSuppressed = false) {addr : Nat → Nat}
    {old sm : Internals} (h : build tr addr R old = (sm, .ok ())) :
    ∀ xs ∈ xss, ∀ j, j < xs.length → CanWin (xs.map (·.2)) j := by
  unfold build at h
  rcases buildTemp_spec tr _ _ addr hnpos R xss hR.states hR.stateOk with
    ⟨sm', b1, _, _, _, _, _, b7, _⟩ | ⟨msg, b1, b2⟩
  · intro xs hxs j hj
    obtain ⟨i, hi⟩ := List.getElem?_of_mem hxs
    rcases b7 with h1 | h1
    · rw [hs] at h1; cases h1
    · exact (earliest_canWin hR hi (htwo xs hxs) j).1 (h1 i xs j hi hj)
  · rw [b1] at h; cases h

/-- C30, other direction: the exception for suppressed rules is thrown only if the flag is
off and some rule cannot win. -/
theorem C30_suppressed_exception_partial {tr : Traits} (hnpos : 263 ≤ tr.npos) {R : Rules}
    {xss : List (List SRule)} (hR : RuleSet tr R xss) (htwo : ∀ xs ∈ xss, ∀ x ∈ xs, TwoPlanes tr x.2)
    {addr : Nat → Nat} {old sm : Internals} (h : build tr addr R old = (sm, .error (.throw msgSuppressed))) :
    R.allowSuppressed = false ∧ ∃ xs ∈ xss, ∃ j, j < xs.length ∧ ¬ CanWin (xs.map (·.2)) j := by
  rcases C28_outcomes_partial hnpos hR addr old with ⟨sm', h1, _⟩ | ⟨msg, h1, h2⟩
  · rw [h] at h1; cases h1
  · rw [h] at h1
    simp only [Prod.mk.injEq, Except.error.injEq, Fault.throw.injEq] at h1
    obtain ⟨_, rfl⟩ := h1
    rcases h2 with ⟨h2, _⟩ | ⟨h2, _⟩ | h2 | ⟨_, h2⟩
    · exact absurd h2 (by decide)
    · exact absurd h2 (by decide)
    · exact absurd h2 (by decide)
    · obtain ⟨h2, xs, h3, j, h4, h5⟩ := h2
      exact ⟨h2, xs, h3, j, h4, h5 (htwo xs h3)⟩

/-- C30: for anchor-free rules "can win" means that some input makes it the result of
longest match, earliest rule. -/
theorem C30_can_win_iff_best {es : List (Option Re)} (hbol : ∀ e ∈ es, NoBol e) (hne : NoEmpty es) (j : Nat) :
    CanWin es j ↔ ∃ inp k, Best RMatches es inp 0 inp.length k j := by
  constructor
  · rintro ⟨atLine, cs, ⟨e, h1, h2⟩, h3⟩
    rw [line_noBol (hbol e (List.mem_of_getElem? h1))] at h2
    refine ⟨cs, cs.length, ?_, Nat.le_refl _, ⟨e, h1, by rw [text_all]; exact h2⟩, ?_, ?_⟩
    · cases cs with
      | nil => exact absurd h2 (hne e (List.mem_of_getElem? h1))
      | cons c cs => simp
    · intro i e' hi he' hm
      rw [text_all] at hm
      exact h3 i e' hi he' ((line_noBol (hbol e' (List.mem_of_getElem? he')) _).2 hm)
    · intro k' h4 h5; omega
  · rintro ⟨inp, k, hb⟩
    obtain ⟨e, h1, h2⟩ := hb.hit
    refine ⟨false, (inp.drop 0).take (k - 0), ⟨e, h1, ?_⟩, ?_⟩
    · exact (line_noBol (hbol e (List.mem_of_getElem? h1)) _).2 h2
    · intro i e' hi he' hm
      exact hb.earliest i e' hi he' ((line_noBol (hbol e' (List.mem_of_getElem? he')) _).1 hm)

/-- C13: node addresses do not matter, for any rule set whatever. -/
theorem C13_address_independent (tr : Traits) (addr addr' : Nat → Nat) (R : Rules) :
    buildTemp tr addr R = buildTemp tr addr' R := buildTemp_addr tr addr addr' R

/-- C13: the construction terminates for rule sets in the modelled fragment: the bounds on
the numbers of iterations are never reached, and no undefined behaviour occurs. -/
theorem C13_build_terminates_partial {tr : Traits} (hnpos : 263 ≤ tr.npos) {R : Rules}
    {xss : List (List SRule)} (hR : RuleSet tr R xss) (addr : Nat → Nat) :
    (∃ sm, buildTemp tr addr R = .ok sm) ∨ ∃ msg, buildTemp tr addr R = .error (.throw msg) := by
  rcases buildTemp_spec tr _ _ addr hnpos R xss hR.states hR.stateOk with ⟨sm, b1, _⟩ | ⟨msg, b1, _⟩
  · exact .inl ⟨sm, b1⟩
  · exact .inr ⟨msg, b1⟩

/-- The message of the exception thrown. -/
def thrown : M Unit → Option String
  | .error (.throw m) => some m
  | _ => none

/-- The example rule set meets the hypotheses and is built; putting `a` behind `[a-b]+`
makes it a suppressed rule, and `[a-b]*` is rejected as zero-length: both exceptions
occur. -/
example : RuleSet Ex.tr Ex.R [Ex.rules] ∧
    (∃ sm, build Ex.tr (fun n => n) Ex.R ⟨7, [], [], 0, []⟩ = (sm, .ok ())) ∧
    thrown (build Ex.tr (fun n => n) { Ex.R with states := [[Ex.rAB, Ex.rA]] } ⟨7, [], [], 0, []⟩).2 =
      some msgSuppressed ∧
    thrown (build Ex.tr (fun n => n) { Ex.R with states := [[{ Ex.rAB with
      regex := [Ex.tBegin, Ex.tAB, ⟨.zeroormore, [], []⟩, Ex.tEnd] }]] } ⟨7, [], [], 0, []⟩).2 = some msgZero := by
  refine ⟨Ex.ruleSet, ?_, by decide +kernel, by decide +kernel⟩
  obtain ⟨sm, h⟩ := Ex.built
  exact ⟨sm, by unfold build; rw [h]⟩

end Lexertl.Props

import Verif.Proofs.Lex
import Verif.Props.Example

/-
Properties C01, C02, C34 and C43: what `lookup` returns on a machine made by
`generator::build`, in terms of the regular expressions of the rules.
-/
namespace Lexertl.Props
open Spec

/-- C01.  A machine built from anchor-free greedy rules; a result object before the
end of input, in a lexer state with rules `xs`.  If `k` is the end of the longest
non-empty text matched from there and rule `j` is the first rule matching it, then
`lookup` returns exactly this text with the ids of this rule.  (Rules with the ids
`skip` and `eoi`, and popping rules, are covered by `C43_lookup_refines_rules`.) -/
theorem C01_longest_match_earliest_rule {tr : Traits} (hnpos : 263 ≤ tr.npos) {R : Rules} {xss : List (List SRule)} (hR : RuleSet tr R xss)
    (hbol : ∀ xs ∈ xss, ∀ x ∈ xs, NoBol x.2) {addr : Nat → Nat} {sm : Internals}
    (hsm : buildTemp tr addr R = .ok sm) (f : Flags) {inp : List Nat} (hinp : ∀ c ∈ inp, c < charsOf tr)
    {r : Results} (hp : r.second < r.eoi) (he : r.eoi ≤ inp.length) {xs : List SRule}
    (hxs : xss[r.state]? = some xs) {k j : Nat} {x : SRule}
    (hbest : Best RMatches (xs.map (·.2)) inp r.second r.eoi k j) (hx : xs[j]? = some x)
    (hskip : x.1.id ≠ tr.npos - 1) (hcont : x.1.id ≠ R.eoi)
    (hpop : f.recursive = false ∨ x.1.popDfa = false) :
    ∃ r', lookup f tr.npos (bytesOf tr) sm inp r = .ok r' ∧ r'.first = r.second ∧ r'.second = k ∧
      r'.id = x.1.id ∧ r'.userId = x.1.userId ∧ r'.eoi = r.eoi ∧
      r'.state = if f.multiState then x.1.nextDfa else r.state := by
  have hcg : ∀ (atLine : Bool), ∀ e ∈ xs.map (·.2), ∀ k, RMatches e (text inp r.second k) ↔
      LineMatch atLine e (text inp r.second k) := by
    intro atLine e he k
    obtain ⟨x, hx, rfl⟩ := List.mem_map.1 he
    exact (line_noBol (hbol xs (List.mem_of_getElem? hxs) x hx) _).symm
  obtain ⟨r', h1, h2, h3, h4, h5, h6, h7, _⟩ := lookup_chosen hnpos hR hsm f hinp hp he hxs
    (.text xs x k j hxs hx (best_congr (hcg _) hbest)) hskip hcont hpop
  exact ⟨r', h1, h2, h3, h4, h5, h6, h7⟩

/-- The hypotheses of C01 are met: on "abba" the example lexer with rules `a` (id 1),
`[a-b]+` (id 2), `c` (skipped) takes all four characters by the second rule. -/
example : ∃ sm r', buildTemp Ex.tr (fun n => n) Ex.R = .ok sm ∧
    lookup ⟨false, false, false, false, true⟩ Ex.tr.npos 1 sm [97, 98, 98, 97] (.mk' 65535 0 4) = .ok r' ∧
    r'.first = 0 ∧ r'.second = 4 ∧ r'.id = 2 := by
  obtain ⟨sm, hsm⟩ := Ex.built
  have hpow : ∀ k, Pow (Re.Matches (.chars [(97, 98)])) k (text [97, 98, 98, 97] 0 k) ∨ 4 < k := by
    intro k
    match k with
    | 0 => left; rfl
    | 1 => left; exact ⟨[.ch 97], [], rfl, ⟨97, by decide, rfl⟩, rfl⟩
    | 2 => left; exact ⟨[.ch 97], [.ch 98], rfl, ⟨97, by decide, rfl⟩, [.ch 98], [], rfl, ⟨98, by decide, rfl⟩, rfl⟩
    | 3 => left; exact ⟨[.ch 97], [.ch 98, .ch 98], rfl, ⟨97, by decide, rfl⟩, [.ch 98], [.ch 98], rfl,
        ⟨98, by decide, rfl⟩, [.ch 98], [], rfl, ⟨98, by decide, rfl⟩, rfl⟩
    | 4 => left; exact ⟨[.ch 97], [.ch 98, .ch 98, .ch 97], rfl, ⟨97, by decide, rfl⟩, [.ch 98], [.ch 98, .ch 97], rfl,
        ⟨98, by decide, rfl⟩, [.ch 98], [.ch 97], rfl, ⟨98, by decide, rfl⟩, [.ch 97], [], rfl,
        ⟨97, by decide, rfl⟩, rfl⟩
    | k + 5 => right; omega
  obtain ⟨r', h1, h2, h3, h4, _⟩ := C01_longest_match_earliest_rule (tr := Ex.tr) (by decide) Ex.ruleSet
    (by
      intro xs hxs x hx
      simp only [List.mem_singleton] at hxs
      subst hxs
      simp only [Ex.rules, List.mem_cons, List.not_mem_nil, or_false] at hx
      rcases hx with rfl | rfl | rfl <;> rfl) hsm ⟨false, false, false, false, true⟩
    (inp := [97, 98, 98, 97]) (by decide) (r := .mk' 65535 0 4) (by decide) (by decide) (xs := Ex.rules) rfl
    (k := 4) (j := 1) (x := (Ex.rAB, some (.plus (.chars [(97, 98)]) false)))
    ⟨by decide, by decide, ⟨_, rfl, 4, by omega, (hpow 4).resolve_right (by omega)⟩, by
        intro i e hi he
        match i with
        | 0 => cases he; rintro ⟨c, _, h⟩; cases h
        | i + 1 => omega, by intro k' h1 h2; simp only [Results.mk'] at h2; omega⟩ rfl (by decide) (by decide) (.inl rfl)
  exact ⟨sm, r', hsm, h1, h2, h3, h4⟩

/-- C01/C02 as one statement.  If no rule of the lexer state matches the empty text and
none is a skip, continue or popping rule, `lookup` always returns: either the longest
match with the ids of the earliest rule, or, if nothing matches, `npos` and one
character. -/
theorem C01_lookup_total {tr : Traits} (hnpos : 263 ≤ tr.npos) {R : Rules} {xss : List (List SRule)} (hR : RuleSet tr R xss)
    (hbol : ∀ xs ∈ xss, ∀ x ∈ xs, NoBol x.2) {addr : Nat → Nat} {sm : Internals}
    (hsm : buildTemp tr addr R = .ok sm) (f : Flags) {inp : List Nat} (hinp : ∀ c ∈ inp, c < charsOf tr)
    {r : Results} (hp : r.second < r.eoi) (he : r.eoi ≤ inp.length) {xs : List SRule}
    (hxs : xss[r.state]? = some xs) (hempty : NoEmpty (xs.map (·.2)))
    (hids : ∀ x ∈ xs, x.1.id ≠ tr.npos - 1 ∧ x.1.id ≠ R.eoi ∧ (f.recursive = false ∨ x.1.popDfa = false)) :
    ∃ r', lookup f tr.npos (bytesOf tr) sm inp r = .ok r' ∧
      ((∃ k j x, Best RMatches (xs.map (·.2)) inp r.second r.eoi k j ∧ xs[j]? = some x ∧
          r'.first = r.second ∧ r'.second = k ∧ r'.id = x.1.id ∧ r'.userId = x.1.userId) ∨
       (NoMatch RMatches (xs.map (·.2)) inp r.second r.eoi ∧ r'.first = r.second ∧
          r'.second = (if f.advance then r.second + 1 else r.second) ∧ r'.id = tr.npos ∧ r'.userId = tr.npos)) := by
  have hcg : ∀ (atLine : Bool), ∀ e ∈ xs.map (·.2), ∀ k, LineMatch atLine e (text inp r.second k) ↔
      RMatches e (text inp r.second k) := by
    intro atLine e he k
    obtain ⟨x, hx, rfl⟩ := List.mem_map.1 he
    exact line_noBol (hbol xs (List.mem_of_getElem? hxs) x hx) _
  rcases lookup_cases hnpos hR hsm f hinp hp he hxs with ⟨x, k, next, b, h⟩ | ⟨h1, h2, h3⟩
  · cases h with
    | text xs' x k j g1 g2 g3 =>
      rw [show xss[r.state]? = some xs from hxs] at g1
      cases g1
      obtain ⟨i1, i2, i3⟩ := hids x (List.mem_of_getElem? g2)
      obtain ⟨r', h1, h2, h3, h4, h5, h6, h7, _⟩ := lookup_chosen hnpos hR hsm f hinp hp he hxs
        (.text xs x k j hxs g2 g3) i1 i2 i3
      exact ⟨r', h1, .inl ⟨k, j, x, best_congr (hcg _) g3, g2, h2, h3, h4, h5⟩⟩
    | empty xs' x j g1 g2 g3 g4 =>
      rw [show xss[r.state]? = some xs from hxs] at g1
      cases g1
      obtain ⟨e, e1, e2⟩ := g4.hit
      exact absurd e2 (hempty e (List.mem_of_getElem? e1))
  · obtain ⟨c, h3, h4⟩ := h3
    exact ⟨_, h4, .inr ⟨noMatch_congr (hcg _) h1, rfl, rfl, rfl, rfl⟩⟩

/-- C02, first half: if no rule of the lexer state matches a non-empty text from the
current position on (nor the empty text), `lookup` reports `npos` there and moves one
character forward if the advance flag is on. -/
theorem C02_no_match_reported {tr : Traits} (hnpos : 263 ≤ tr.npos) {R : Rules} {xss : List (List SRule)} (hR : RuleSet tr R xss)
    (hbol : ∀ xs ∈ xss, ∀ x ∈ xs, NoBol x.2) {addr : Nat → Nat} {sm : Internals}
    (hsm : buildTemp tr addr R = .ok sm) (f : Flags) {inp : List Nat} (hinp : ∀ c ∈ inp, c < charsOf tr)
    {r : Results} (hp : r.second < r.eoi) (he : r.eoi ≤ inp.length) {xs : List SRule}
    (hxs : xss[r.state]? = some xs) (hno : NoMatch RMatches (xs.map (·.2)) inp r.second r.eoi)
    (hempty : NoEmpty (xs.map (·.2))) :
    ∃ r', lookup f tr.npos (bytesOf tr) sm inp r = .ok r' ∧ r'.id = tr.npos ∧ r'.first = r.second ∧
      r'.second = (if f.advance then r.second + 1 else r.second) ∧ r'.state = r.state ∧ r'.stack = r.stack := by
  have hcg : ∀ (atLine : Bool), ∀ e ∈ xs.map (·.2), ∀ k, LineMatch atLine e (text inp r.second k) ↔
      RMatches e (text inp r.second k) := by
    intro atLine e he k
    obtain ⟨x, hx, rfl⟩ := List.mem_map.1 he
    exact line_noBol (hbol xs (List.mem_of_getElem? hxs) x hx) _
  rcases lookup_cases hnpos hR hsm f hinp hp he hxs with ⟨x, k, next, b, h⟩ | ⟨h1, h2, c, h3, h4⟩
  · exact (chosen_none h hxs (noMatch_congr (fun e he k => (hcg _ e he k).symm) hno) hempty).elim
  · exact ⟨_, h4, rfl, rfl, rfl, rfl, rfl⟩

/-- C02 on the example lexer at an input byte no rule starts with. -/
example : ∃ sm r', buildTemp Ex.tr (fun n => n) Ex.R = .ok sm ∧
    lookup ⟨false, false, false, false, true⟩ Ex.tr.npos 1 sm [120] (.mk' 65535 0 1) = .ok r' ∧
    r'.id = 65535 ∧ r'.second = 1 := by
  obtain ⟨sm, hsm⟩ := Ex.built
  have hx : ∀ e ∈ Ex.rules.map (·.2), ¬ RMatches e [.ch 120] ∧ ¬ RMatches e [] := by
    intro e he
    simp only [Ex.rules, List.map_cons, List.map_nil, List.mem_cons, List.not_mem_nil, or_false] at he
    rcases he with rfl | rfl | rfl
    · constructor
      · rintro ⟨c, h, h'⟩; cases h'; revert h; decide
      · rintro ⟨c, h, h'⟩; cases h'
    · constructor
      · rintro ⟨k, h1, h⟩
        obtain ⟨k, rfl⟩ : ∃ m, k = m + 1 := ⟨k - 1, by omega⟩
        obtain ⟨u, v, h2, ⟨c, h3, rfl⟩, _⟩ := h
        cases h2
        revert h3; decide
      · rintro ⟨k, h1, h⟩
        obtain ⟨k, rfl⟩ : ∃ m, k = m + 1 := ⟨k - 1, by omega⟩
        obtain ⟨u, v, h2, ⟨c, h3, rfl⟩, _⟩ := h
        cases h2
    · constructor
      · rintro ⟨c, h, h'⟩; cases h'; revert h; decide
      · rintro ⟨c, h, h'⟩; cases h'
  obtain ⟨r', h1, h2, h3, h4, _⟩ := C02_no_match_reported (tr := Ex.tr) (by decide) Ex.ruleSet
    (by
      intro xs hxs x hx
      simp only [List.mem_singleton] at hxs
      subst hxs
      simp only [Ex.rules, List.mem_cons, List.not_mem_nil, or_false] at hx
      rcases hx with rfl | rfl | rfl <;> rfl) hsm ⟨false, false, false, false, true⟩
    (inp := [120]) (by decide) (r := .mk' 65535 0 1) (by decide) (by decide) (xs := Ex.rules) rfl
    (by
      intro k h1 h2 e he
      have : k = 1 := by simp only [Results.mk'] at h1 h2; omega
      subst this
      exact (hx e he).1) (fun e he => (hx e he).2)
  exact ⟨sm, r', hsm, h1, h2, h4⟩

/-- C02, second half, for rule sets with any mixture of skip, continue, push and pop
rules: whenever `lookup` returns the id `npos`, then in the lexer state and at the
position it reports, no rule matches any non-empty text.  (Rules cannot have the id
`npos`: `push` rejects it.) -/
theorem C02_reported_only_if_no_match {tr : Traits} (hnpos : 263 ≤ tr.npos) {R : Rules} {xss : List (List SRule)} (hR : RuleSet tr R xss)
    (hbol : ∀ xs ∈ xss, ∀ x ∈ xs, NoBol x.2)
    {f : Flags} {inp : List Nat} (hex : StatesExist ⟨xss, tr.npos, R.eoi, f, inp⟩) (hid : ∀ xs ∈ xss, ∀ x ∈ xs, x.1.id ≠ tr.npos)
    (heoi : R.eoi ≠ tr.npos) {addr : Nat → Nat} {sm : Internals}
    (hsm : buildTemp tr addr R = .ok sm) (hinp : ∀ c ∈ inp, c < charsOf tr)
    {r r' : Results} (hp : r.second ≤ r.eoi) (hr : ROk ⟨xss, tr.npos, R.eoi, f, inp⟩ r)
    (hret : Returns f tr.npos (bytesOf tr) sm inp r (.ok r')) (hnone : r'.id = tr.npos) :
    ∃ xs, xss[r'.state]? = some xs ∧ r.second ≤ r'.first ∧ r'.first < r'.eoi ∧ r'.eoi = r.eoi ∧
      r'.second = (if f.advance then r'.first + 1 else r'.first) ∧
      NoMatch RMatches (xs.map (·.2)) inp r'.first r'.eoi ∧ NoEmpty (xs.map (·.2)) := by
  have I := build_impl hnpos hR hsm f inp hinp
  obtain ⟨_, n, hn⟩ := hret
  have hL := nextLoop_sound I hex n { r with first := r.second } r.second ⟨hr.state, hr.stack, hr.eoi⟩ hp (by
    unfold lookupFuel at hn
    intro h
    rw [show nextLoop f tr.npos (bytesOf tr) sm inp n _ _ _ = _ from h] at hn
    cases hn)
  unfold lookupFuel at hn
  rw [show nextLoop f tr.npos (bytesOf tr) sm inp n { r with first := r.second } r.second r.second = _ from hn] at hL
  obtain ⟨xs, b, h1, h2, h3, h4, h5, h6, h7⟩ := lex_none (E := ⟨xss, tr.npos, R.eoi, f, inp⟩) hex heoi hid hL ⟨hr.state, hr.stack, hr.eoi⟩
    hp rfl hnone
  refine ⟨xs, h1, h2, h3, h4, h5, ?_, h7⟩
  refine noMatch_congr (fun e he k => ?_) h6
  obtain ⟨x, hx, rfl⟩ := List.mem_map.1 he
  exact line_noBol (hbol xs (List.mem_of_getElem? h1) x hx) _

/-- C43: the complete behaviour of a call of `lookup` on a built machine, with skip,
continue, push and pop rules, `^`, several lexer states and zero-length matches: the
call has outcome `o` exactly if the rules say so. -/
theorem C43_lookup_refines_rules {tr : Traits} (hnpos : 263 ≤ tr.npos) {R : Rules} {xss : List (List SRule)} (hR : RuleSet tr R xss)
    {f : Flags} {inp : List Nat} (hex : StatesExist ⟨xss, tr.npos, R.eoi, f, inp⟩) {addr : Nat → Nat} {sm : Internals}
    (hsm : buildTemp tr addr R = .ok sm) (hinp : ∀ c ∈ inp, c < charsOf tr)
    {r : Results} (hp : r.second ≤ r.eoi) (hr : ROk ⟨xss, tr.npos, R.eoi, f, inp⟩ r) (o : M Results) :
    Returns f tr.npos (bytesOf tr) sm inp r o ↔
      LexEnv.Lex ⟨xss, tr.npos, R.eoi, f, inp⟩ { r with first := r.second } r.second o := by
  have I := build_impl hnpos hR hsm f inp hinp
  constructor
  · rintro ⟨h1, n, rfl⟩
    exact nextLoop_sound I hex n { r with first := r.second } r.second ⟨hr.state, hr.stack, hr.eoi⟩ hp h1
  · intro h
    obtain ⟨N, hN⟩ := nextLoop_complete I hex h ⟨hr.state, hr.stack, hr.eoi⟩
    refine ⟨lex_not_fuel h, N, hN N (Nat.le_refl _)⟩

/-- The hypotheses of C43 and of the second half of C02 are met by the example lexer,
and the calls it describes return: on "cab" the first character is skipped, and on "cx"
the second one is reported as unmatched. -/
example : StatesExist ⟨[Ex.rules], Ex.tr.npos, Ex.R.eoi, ⟨false, false, false, false, true⟩, [99, 97, 98]⟩ ∧
    ROk ⟨[Ex.rules], Ex.tr.npos, Ex.R.eoi, ⟨false, false, false, false, true⟩, [99, 97, 98]⟩ (.mk' 65535 0 3) ∧
    ∃ sm r', buildTemp Ex.tr (fun n => n) Ex.R = .ok sm ∧
    Returns ⟨false, false, false, false, true⟩ Ex.tr.npos 1 sm [99, 97, 98] (.mk' 65535 0 3) (.ok r') ∧
    r'.id = 2 ∧ r'.first = 1 ∧ r'.second = 3 := by
  refine ⟨⟨by decide, by decide⟩, ⟨by decide, by decide, by decide⟩, ?_⟩
  have : ((buildTemp Ex.tr (fun n => n) Ex.R).toOption.bind fun sm =>
      (lookupFuel ⟨false, false, false, false, true⟩ Ex.tr.npos 1 sm [99, 97, 98] 4
        (.mk' 65535 0 3)).toOption.map fun r' => (r'.id, r'.first, r'.second)) = some (2, 1, 3) := by
    decide +kernel
  cases hb : buildTemp Ex.tr (fun n => n) Ex.R with
  | error e => rw [hb] at this; cases this
  | ok sm =>
    rw [hb] at this
    cases hl : lookupFuel ⟨false, false, false, false, true⟩ Ex.tr.npos 1 sm [99, 97, 98] 4 (.mk' 65535 0 3) with
    | error e => simp [hl, Except.toOption] at this
    | ok r' =>
      simp [hl, Except.toOption] at this
      exact ⟨sm, r', rfl, ⟨by simp, 4, hl⟩, this⟩

/-- The position is at the start of the input or follows a newline. -/
def AtLineStart (inp : List Nat) (p : Nat) : Prop := p = 0 ∨ inp[p - 1]? = some 10

/-- C34.  Rules of the forms `r` and `^r` (`r` without anchors), lexed with the `bol`
flag.  If the `bol` field of the result object is right for its position, `lookup`
returns the longest match and earliest rule, where rules `^r` match only at line
starts and rules `r` everywhere; and the `bol` field is right again afterwards. -/
theorem C34_bol_rules {tr : Traits} (hnpos : 263 ≤ tr.npos) {R : Rules} {xss : List (List SRule)} (hR : RuleSet tr R xss)
    (hbol : ∀ xs ∈ xss, ∀ x ∈ xs, PlainOrBol x.2) {addr : Nat → Nat} {sm : Internals}
    (hsm : buildTemp tr addr R = .ok sm) (f : Flags) (hf : f.bol = true) {inp : List Nat}
    (hinp : ∀ c ∈ inp, c < charsOf tr)
    {r : Results} (hp : r.second < r.eoi) (he : r.eoi ≤ inp.length) (hb : r.bol = true ↔ AtLineStart inp r.second)
    {xs : List SRule} (hxs : xss[r.state]? = some xs) {k j : Nat} {x : SRule} {atLine : Bool}
    (hat : atLine = true ↔ AtLineStart inp r.second)
    (hbest : Best (MatchesAt atLine) (xs.map (·.2)) inp r.second r.eoi k j)
    (hx : xs[j]? = some x) (hskip : x.1.id ≠ tr.npos - 1) (hcont : x.1.id ≠ R.eoi)
    (hpop : f.recursive = false ∨ x.1.popDfa = false) :
    ∃ r', lookup f tr.npos (bytesOf tr) sm inp r = .ok r' ∧ r'.first = r.second ∧ r'.second = k ∧
      r'.id = x.1.id ∧ r'.userId = x.1.userId ∧ (r'.bol = true ↔ AtLineStart inp r'.second) := by
  have hrb : r.bol = atLine := by
    cases h1 : r.bol <;> cases h2 : atLine <;> simp_all
  have hal : LexEnv.atLine ⟨xss, tr.npos, R.eoi, f, inp⟩ { r with first := r.second } = atLine := by
    simp [LexEnv.atLine, hf, hrb]
  have hcg : ∀ e ∈ xs.map (·.2), ∀ k, MatchesAt atLine e (text inp r.second k) ↔
      LineMatch (LexEnv.atLine ⟨xss, tr.npos, R.eoi, f, inp⟩ { r with first := r.second }) e
        (text inp r.second k) := by
    intro e he k
    obtain ⟨x, hx, rfl⟩ := List.mem_map.1 he
    rw [hal]
    exact (line_plain (hbol xs (List.mem_of_getElem? hxs) x hx) (text_noBol _ _ _)).symm
  obtain ⟨r', h1, h2, h3, h4, h5, _, _, h6, _⟩ := lookup_chosen hnpos hR hsm f hinp hp he hxs
    (.text xs x k j hxs hx (best_congr hcg hbest)) hskip hcont hpop
  refine ⟨r', h1, h2, h3, h4, h5, ?_⟩
  rw [h6, if_pos hf, h3]
  have := hbest.nonempty
  unfold AtLineStart
  simp only [beq_iff_eq]
  constructor
  · exact .inr
  · rintro (h | h)
    · omega
    · exact h

/-- C34 on the example lexer with `^c` (id 3) in front of a skip rule `c`: at the start
of a line `c` is returned as a token. -/
example : ∃ sm r', buildTemp Ex.tr (fun n => n) Ex.RBol = .ok sm ∧
    lookup ⟨true, false, false, false, true⟩ Ex.tr.npos 1 sm [99] (.mk' 65535 0 1) = .ok r' ∧
    r'.id = 3 ∧ r'.second = 1 := by
  obtain ⟨sm, hsm⟩ := Ex.builtBol
  obtain ⟨r', h1, h2, h3, h4, _⟩ := C34_bol_rules (tr := Ex.tr) (by decide) Ex.ruleSetBol
    (by
      intro xs hxs x hx
      simp only [List.mem_singleton] at hxs
      subst hxs
      simp only [Ex.rulesBol, Ex.rules, List.cons_append, List.nil_append, List.mem_cons, List.not_mem_nil,
        or_false] at hx
      rcases hx with rfl | rfl | rfl | rfl | rfl
      · exact .inr rfl
      all_goals exact .inl rfl) hsm ⟨true, false, false, false, true⟩ rfl
    (inp := [99]) (by decide) (r := .mk' 65535 0 1) (by decide) (by decide) (by simp [Results.mk', AtLineStart])
    (xs := Ex.rulesBol) rfl
    (k := 1) (j := 0) (x := (Ex.rBolC, some (.seq .bol (.chars [(99, 99)])))) (atLine := true)
    (by simp [Results.mk', AtLineStart])
    ⟨by decide, by decide, ⟨_, rfl, .inr ⟨rfl, [.bol], [.ch 99], rfl, rfl, 99, by decide, rfl⟩⟩, by
        intro i e hi; omega, by intro k' h1 h2; simp only [Results.mk'] at h2; omega⟩ rfl (by decide) (by decide)
      (.inl rfl)
  exact ⟨sm, r', hsm, h1, h4, h3⟩

/-- Away from a line start the same lexer does not return id 3: in "ac" the `c` is
skipped and the end of input (id 0) is reported. -/
example : ((buildTemp Ex.tr (fun n => n) Ex.RBol).toOption.bind fun sm =>
      (lookup ⟨true, false, false, false, true⟩ Ex.tr.npos 1 sm [97, 99]
        { (Results.mk' 65535 0 2) with second := 1, bol := false }).toOption.map fun r' => (r'.id, r'.first)) =
    some (0, 2) := by
  decide +kernel

/-- C34: when no rule matches (with the same reading of `^`), `lookup` reports `npos`
and the `bol` field is right for the next position. -/
theorem C34_bol_no_match {tr : Traits} (hnpos : 263 ≤ tr.npos) {R : Rules} {xss : List (List SRule)} (hR : RuleSet tr R xss)
    (hbol : ∀ xs ∈ xss, ∀ x ∈ xs, PlainOrBol x.2) {addr : Nat → Nat} {sm : Internals}
    (hsm : buildTemp tr addr R = .ok sm) (f : Flags) (hf : f.bol = true) (hadv : f.advance = true)
    {inp : List Nat} (hinp : ∀ c ∈ inp, c < charsOf tr)
    {r : Results} (hp : r.second < r.eoi) (he : r.eoi ≤ inp.length) (hb : r.bol = true ↔ AtLineStart inp r.second)
    {xs : List SRule} (hxs : xss[r.state]? = some xs) {atLine : Bool}
    (hat : atLine = true ↔ AtLineStart inp r.second)
    (hno : NoMatch (MatchesAt atLine) (xs.map (·.2)) inp r.second r.eoi) (hempty : NoEmpty (xs.map (·.2))) :
    ∃ r', lookup f tr.npos (bytesOf tr) sm inp r = .ok r' ∧ r'.id = tr.npos ∧ r'.first = r.second ∧
      r'.second = r.second + 1 ∧ (r'.bol = true ↔ AtLineStart inp r'.second) := by
  have hrb : r.bol = atLine := by
    cases h1 : r.bol <;> cases h2 : atLine <;> simp_all
  have hcg : ∀ e ∈ xs.map (·.2), ∀ k, MatchesAt atLine e (text inp r.second k) ↔
      LineMatch (LexEnv.atLine ⟨xss, tr.npos, R.eoi, f, inp⟩ { r with first := r.second }) e
        (text inp r.second k) := by
    intro e he k
    obtain ⟨x, hx, rfl⟩ := List.mem_map.1 he
    have hal : LexEnv.atLine ⟨xss, tr.npos, R.eoi, f, inp⟩ { r with first := r.second } = atLine := by
      simp [LexEnv.atLine, hf, hrb]
    rw [hal]
    exact (line_plain (hbol xs (List.mem_of_getElem? hxs) x hx) (text_noBol _ _ _)).symm
  rcases lookup_cases hnpos hR hsm f hinp hp he hxs with ⟨x, k, next, b, h⟩ | ⟨h1, h2, c, h3, h4⟩
  · exact (chosen_none h hxs (noMatch_congr hcg hno) hempty).elim
  · refine ⟨_, h4, rfl, rfl, by simp [hadv], ?_⟩
    simp only [hadv, if_true, AtLineStart, Nat.add_sub_cancel, h3, beq_iff_eq, Option.some.injEq]
    omega

end Lexertl.Props

import Verif.Proofs.Steps
import Verif.Props.Calls
import Verif.Props.Lexing

/-
Properties C17, C18 and C19 on built machines: rules matching the empty text, skip and
continue rules, the stack of lexer states.
-/
namespace Lexertl.Props
open Spec

/-- `lookup` on a built machine, as in `C43_lookup_refines_rules`. -/
theorem call_iff {tr : Traits} {R : Rules} {xss : List (List SRule)} {f : Flags} {inp : List Nat}
    {sm : Internals} (B : BuiltFor tr R xss f inp sm) {r : Results} (hp : r.second ≤ r.eoi)
    (hr : ROk ⟨xss, tr.npos, R.eoi, f, inp⟩ r) (o : M Results) :
    Returns f tr.npos (bytesOf tr) sm inp r o ↔
      LexEnv.Lex ⟨xss, tr.npos, R.eoi, f, inp⟩ { r with first := r.second } r.second o := by
  obtain ⟨addr, hsm⟩ := B.built
  exact C43_lookup_refines_rules B.wide B.rules B.states hsm B.chars hp hr o

/-- The parenthesis lexer of `Ex`, on `inp`. -/
theorem exPar_built (inp : List Nat) (h : ∀ c ∈ inp, c < charsOf Ex.tr) :
    BuiltFor Ex.tr Ex.RPar Ex.rulesPar Ex.fRec inp (Ex.machine Ex.RPar) where
  wide := by decide
  rules := Ex.ruleSetPar
  states := by
    refine ⟨?_, ?_⟩
    · show ∀ xs ∈ Ex.rulesPar, ∀ x ∈ xs, (true = true ∧ x.1.popDfa = true) ∨ x.1.nextDfa < Ex.rulesPar.length
      decide
    · show ∀ xs ∈ Ex.rulesPar, ∀ x ∈ xs, x.1.pushDfa ≠ Ex.tr.npos → x.1.pushDfa < Ex.rulesPar.length
      decide
  built := ⟨_, Ex.machine_ok (by decide +kernel)⟩
  chars := h

/-- Among rules for one character each, the first one for the next character is chosen. -/
theorem chosen_chr {E : LexEnv} {r : Results} {p c j : Nat} {xs : List SRule} {cs : List Nat} {x : SRule}
    (hxs : E.rules[r.state]? = some xs) (hcs : xs.map (·.2) = cs.map fun c => some (.chars [(c, c)]))
    (hx : xs[j]? = some x) (hj : cs[j]? = some c) (hfirst : ∀ i < j, cs[i]? ≠ some c)
    (hc : E.inp[p]? = some c) (hp : p < r.eoi) (he : r.eoi ≤ E.inp.length) :
    E.Chosen r p x (p + 1) x.1.nextDfa (E.inp[p]? == some 10) := by
  have hline : ∀ d w, LineMatch (E.atLine r) (some (.chars [(d, d)])) w ↔ w = [.ch d] := by
    intro d w
    rw [line_noBol (by rfl)]
    constructor
    · rintro ⟨e, ⟨y, hy, h1⟩, rfl⟩
      simp only [List.mem_singleton] at hy
      subst hy
      rw [show e = d by omega]
    · rintro rfl
      exact ⟨d, ⟨_, List.mem_singleton.2 rfl, Nat.le_refl _, Nat.le_refl _⟩, rfl⟩
  have hp' := (List.getElem?_eq_some_iff.1 hc).1
  have ht : ∀ k, p < k → text E.inp p k = .ch c :: text E.inp (p + 1) k := by
    intro k hk
    rw [text, text, List.drop_eq_getElem_cons hp', show k - p = (k - (p + 1)) + 1 by omega, List.take_succ_cons,
      List.map_cons]
    rw [List.getElem?_eq_getElem hp'] at hc
    injection hc with hc
    rw [hc]
  have := LexEnv.Chosen.text (E := E) (r := r) (p := p) xs x (p + 1) j hxs hx ?_
  · simpa using this
  · rw [hcs]
    refine ⟨by omega, by omega, ⟨_, by rw [List.getElem?_map, hj]; rfl, ?_⟩, ?_, ?_⟩
    · rw [hline, ht _ (by omega)]
      simp [text]
    · intro i e hi hm
      rw [List.getElem?_map] at hm
      cases hd : cs[i]? with
      | none => rw [hd] at hm; cases hm
      | some d =>
        rw [hd] at hm
        cases hm
        rw [hline, ht _ (by omega)]
        intro h
        injection h with h
        injection h with h
        subst h
        exact hfirst i hi hd
    · intro k hk hk' e hm
      obtain ⟨d, _, rfl⟩ := List.mem_map.1 hm
      rw [hline, ht _ (by omega)]
      intro h
      injection h with _ h
      unfold text at h
      have := congrArg List.length h
      simp at this
      omega

/-- C17.  A call at a position where no rule takes a non-empty text and the first rule
matching the empty text is a skip rule or a continue rule never returns (unless that rule
pops). -/
theorem C17_empty_skip_never_returns {tr : Traits} {R : Rules} {xss : List (List SRule)} {f : Flags}
    {inp : List Nat} {sm : Internals} (B : BuiltFor tr R xss f inp sm) {r : Results} (hp : r.second < r.eoi)
    (hr : ROk ⟨xss, tr.npos, R.eoi, f, inp⟩ r) {xs : List SRule} (hxs : xss[r.state]? = some xs)
    (hno : NoMatch (LineMatch (f.bol && r.bol)) (xs.map (·.2)) inp r.second r.eoi) {x : SRule} {j : Nat}
    (hx : xs[j]? = some x) (hfe : FirstEmpty (xs.map (·.2)) j)
    (hid : x.1.id = tr.npos - 1 ∨ x.1.id = R.eoi) (hpop : f.recursive = false ∨ x.1.popDfa = false) :
    Diverges f tr.npos (bytesOf tr) sm inp r := by
  intro fuel
  refine Classical.byContradiction fun hne => ?_
  have := (call_iff B (Nat.le_of_lt hp) hr _).1 ⟨hne, fuel, rfl⟩
  exact lex_empty_loop hx hfe hid hpop this hp hxs hno

/-- `c*` as a skip rule, at the `b` of `"b"`. -/
example : BuiltFor Ex.tr Ex.REmpty Ex.rulesEmpty Ex.fAll [98] (Ex.machine Ex.REmpty) ∧
    Diverges Ex.fAll 65535 1 (Ex.machine Ex.REmpty) [98] (.mk' 65535 0 1) := by
  have B : BuiltFor Ex.tr Ex.REmpty Ex.rulesEmpty Ex.fAll [98] (Ex.machine Ex.REmpty) :=
    ⟨by decide, Ex.ruleSetEmpty, ⟨by decide, by decide⟩, ⟨_, Ex.machine_ok (by decide +kernel)⟩, by decide⟩
  refine ⟨B, C17_empty_skip_never_returns B (xs := [Ex.chr 97 1, Ex.rCstar]) (x := Ex.rCstar) (j := 1)
    (by decide) ⟨by decide, by simp [Results.mk'], by decide⟩ rfl ?_ rfl ?_ (.inl rfl) (.inl rfl)⟩
  · intro k h1 h2
    have hk : k = 1 := by
      have a : 0 < k := h1
      have b : k ≤ 1 := h2
      omega
    subst hk
    have ht : text [98] 0 1 = [.ch 98] := rfl
    simp only [List.map_cons, List.map_nil, List.mem_cons, List.not_mem_nil, or_false, forall_eq_or_imp, forall_eq]
    show ¬ LineMatch _ (Ex.chr 97 1).2 (text [98] 0 1) ∧ ¬ LineMatch _ Ex.rCstar.2 (text [98] 0 1)
    rw [ht, line_noBol (by rfl), line_noBol (by rfl)]
    refine ⟨?_, ?_⟩
    · rintro ⟨c, ⟨r, hr, h3⟩, h4⟩
      simp only [List.mem_singleton] at hr
      subst hr
      cases h4
      simp at h3
    · rintro ⟨n, hn⟩
      cases n with
      | zero => cases hn
      | succ n =>
        obtain ⟨u, v, h1, ⟨c, ⟨r, hr, h3⟩, h4⟩, _⟩ := hn
        simp only [List.mem_singleton] at hr
        subst hr
        subst h4
        cases h1
        simp at h3
  · refine ⟨⟨_, rfl, 0, rfl⟩, ?_⟩
    intro i e hi he
    have : i = 0 := by omega
    subst this
    cases he
    rintro ⟨c, _, h⟩
    cases h

/-- C18.  No call ever returns the skip id, whatever the machine (`npos` and the end of
input id being different from it). -/
theorem C18_skip_never_returned (L : Lexer) (h1 : 0 < L.npos) (h2 : L.sm.eoi ≠ L.npos - 1) {r r' : Results}
    (hr : r.second ≤ r.eoi) (h : L.Call r (.ok r')) : r'.id ≠ L.npos - 1 := by
  rcases (call_yields hr h).tok with t | t | ⟨q, r0, s, t⟩
  · rw [t.1]; exact h2
  · rw [t.1]; omega
  · rw [t.2.2.2.2.2.1]; exact t.2.2.2.2.2.2.2.1

/-- C18.  A match of a skip rule does not show: the call has the same outcome as a call
that starts after the skipped text (in the state the skip rule leads to). -/
theorem C18_skip_is_invisible {tr : Traits} {R : Rules} {xss : List (List SRule)} {f : Flags}
    {inp : List Nat} {sm : Internals} (B : BuiltFor tr R xss f inp sm) {r r' : Results} (hp : r.second < r.eoi)
    (hr : ROk ⟨xss, tr.npos, R.eoi, f, inp⟩ r) {x : SRule} {k next : Nat} {b : Bool}
    (hch : LexEnv.Chosen ⟨xss, tr.npos, R.eoi, f, inp⟩ r r.second x k next b)
    (hid : x.1.id = tr.npos - 1)
    (hacc : LexEnv.accept ⟨xss, tr.npos, R.eoi, f, inp⟩ x.1 r k next b = .ok r') (o : M Results) :
    r'.second = k ∧ (Returns f tr.npos (bytesOf tr) sm inp r o ↔ Returns f tr.npos (bytesOf tr) sm inp r' o) := by
  have hch' : LexEnv.Chosen ⟨xss, tr.npos, R.eoi, f, inp⟩ { r with first := r.second } r.second x k next b := by
    cases hch with
    | text xs x k j h1 h2 h3 => exact .text xs x k j h1 h2 h3
    | empty xs x j h1 h2 h3 h4 => exact .empty xs x j h1 h2 h3 h4
  obtain ⟨d1, d2, d3, d4⟩ := accept_ok B.states hch hr hacc
  have hk := chosen_le hch (Nat.le_of_lt hp)
  refine ⟨d3, ?_⟩
  rw [call_iff B (Nat.le_of_lt hp) hr, call_iff B (by rw [d2, d3]; exact hk.2) d1]
  have hacc' : LexEnv.accept ⟨xss, tr.npos, R.eoi, f, inp⟩ x.1 { r with first := r.second } k next b =
      .ok { r' with first := r.second } := by
    unfold LexEnv.accept at hacc ⊢
    dsimp only at hacc ⊢
    split at hacc
    · rename_i hc
      rw [if_pos hc]
      split at hacc
      · cases hacc
      · cases hacc; simp only
    · rename_i hc
      rw [if_neg hc]
      cases hacc; rfl
  rw [lex_skip (r := { r with first := r.second }) hp hch' hacc' hid, d3]

/-- The skipped `c` of `"(c)"`, after the parenthesis: the call gives `)`. -/
example : ∃ r', LexEnv.Chosen ⟨Ex.rulesPar, 65535, 0, Ex.fRec, [40, 99, 41]⟩ ⟨2, 65535, 0, 1, 3, false, 1, [(0, 2)]⟩ 1
      (Ex.chr 99 65534 1) 2 1 false ∧
    LexEnv.accept ⟨Ex.rulesPar, 65535, 0, Ex.fRec, [40, 99, 41]⟩ (Ex.chr 99 65534 1).1
      ⟨2, 65535, 0, 1, 3, false, 1, [(0, 2)]⟩ 2 1 false = .ok r' ∧
    ∀ o, Returns Ex.fRec 65535 1 (Ex.machine Ex.RPar) [40, 99, 41] ⟨2, 65535, 0, 1, 3, false, 1, [(0, 2)]⟩ o ↔
      Returns Ex.fRec 65535 1 (Ex.machine Ex.RPar) [40, 99, 41] r' o := by
  have hch : LexEnv.Chosen ⟨Ex.rulesPar, 65535, 0, Ex.fRec, [40, 99, 41]⟩ ⟨2, 65535, 0, 1, 3, false, 1, [(0, 2)]⟩ 1
      (Ex.chr 99 65534 1) 2 1 false :=
    chosen_chr (cs := [40, 41, 99]) (c := 99) (j := 2) rfl rfl rfl rfl (by decide) rfl (by decide) (by decide)
  refine ⟨_, hch, rfl, fun o => ?_⟩
  exact (C18_skip_is_invisible (exPar_built _ (by decide)) (r := ⟨2, 65535, 0, 1, 3, false, 1, [(0, 2)]⟩) (by decide)
    ⟨by decide, by decide, by decide⟩ hch rfl rfl o).2

/-- C18.  Continue rules extend the token: if matches of continue rules lead from the
start of the call to a match of a rule that is returned, the token starts where the call
started. -/
inductive Continued (E : LexEnv) : Results → Nat → Results → Nat → Prop
  | nil (r : Results) (p : Nat) : Continued E r p r p
  | cons (r r1 r' : Results) (p q : Nat) (x : SRule) (k next : Nat) (b : Bool) : p < r.eoi →
      E.Chosen r p x k next b → E.accept x.1 r k next b = .ok r1 → x.1.id ≠ E.npos - 1 →
      E.continues x.1 r1 → Continued E r1 k r' q → Continued E r p r' q

theorem C18_continue_extends {tr : Traits} {R : Rules} {xss : List (List SRule)} {f : Flags}
    {inp : List Nat} {sm : Internals} (B : BuiltFor tr R xss f inp sm) {r r1 r2 : Results} (hp : r.second < r.eoi)
    (hr : ROk ⟨xss, tr.npos, R.eoi, f, inp⟩ r) {q : Nat}
    (hcont : Continued ⟨xss, tr.npos, R.eoi, f, inp⟩ { r with first := r.second } r.second r1 q)
    (hq : q < r.eoi) {x : SRule} {k next : Nat} {b : Bool}
    (hch : LexEnv.Chosen ⟨xss, tr.npos, R.eoi, f, inp⟩ r1 q x k next b)
    (hacc : LexEnv.accept ⟨xss, tr.npos, R.eoi, f, inp⟩ x.1 r1 k next b = .ok r2)
    (hid : x.1.id ≠ tr.npos - 1) (hnc : ¬ LexEnv.continues ⟨xss, tr.npos, R.eoi, f, inp⟩ x.1 r2) :
    ∃ r', Returns f tr.npos (bytesOf tr) sm inp r (.ok r') ∧ r'.first = r.second ∧ r'.second = k ∧
      r'.id = x.1.id ∧ r'.userId = x.1.userId := by
  have key : ∀ {E : LexEnv} {a a' a2 : Results} {p q : Nat}, Continued E a p a' q → q < a.eoi →
      E.Chosen a' q x k next b → E.accept x.1 a' k next b = .ok a2 → x.1.id ≠ E.npos - 1 →
      ¬ E.continues x.1 a2 →
      E.Lex a p (.ok { a2 with id := x.1.id, userId := x.1.userId }) ∧ a2.first = a.first ∧ a2.second = k := by
    intro E a a' a2 p q h
    have acc : ∀ {y : Rule} {r r' : Results} {k next : Nat} {b : Bool}, E.accept y r k next b = .ok r' →
        r'.first = r.first ∧ r'.second = k ∧ r'.eoi = r.eoi := by
      intro y r r' k next b h
      unfold LexEnv.accept at h
      split at h
      · split at h
        · cases h
        · injection h with h; subst h; exact ⟨rfl, rfl, rfl⟩
      · injection h with h; subst h; exact ⟨rfl, rfl, rfl⟩
    induction h with
    | nil r p =>
      intro h1 h2 h3 h4 h5
      exact ⟨.token _ _ _ x k next b h1 h2 h3 h4 h5, (acc h3).1, (acc h3).2.1⟩
    | cons r r1 r' p q y k' next' b' g1 g2 g3 g4 g5 _ ih =>
      intro h1 h2 h3 h4 h5
      obtain ⟨i1, i2, i3⟩ := ih (by rw [(acc g3).2.2]; exact h1) h2 h3 h4 h5
      exact ⟨.again _ _ _ y k' next' b' _ g1 g2 g3 g4 g5 i1, by rw [i2, (acc g3).1], i3⟩
  obtain ⟨h1, h2, h3⟩ := key hcont hq hch hacc hid hnc
  exact ⟨_, (call_iff B (Nat.le_of_lt hp) hr _).2 h1, h2, h3, rfl, rfl⟩

/-- `a` continues, `b` ends a token: on `"aab"` the token is `aab`. -/
example : ∃ r', Returns Ex.fAll 65535 1 (Ex.machine Ex.RCont) [97, 97, 98] (.mk' 65535 0 3) (.ok r') ∧
    r'.first = 0 ∧ r'.second = 3 ∧ r'.id = 1 := by
  have B : BuiltFor Ex.tr Ex.RCont Ex.rulesCont Ex.fAll [97, 97, 98] (Ex.machine Ex.RCont) :=
    ⟨by decide, Ex.ruleSetCont, ⟨by decide, by decide⟩, ⟨_, Ex.machine_ok (by decide +kernel)⟩, by decide⟩
  have hch : ∀ r : Results, r.eoi = 3 → r.state = 0 → ∀ p < 2,
      LexEnv.Chosen ⟨Ex.rulesCont, 65535, 0, Ex.fAll, [97, 97, 98]⟩ r p (Ex.chr 97 0) (p + 1) 0 false := by
    intro r h1 h2 p hp
    have hc : [97, 97, 98][p]? = some 97 := by
      cases p with
      | zero => rfl
      | succ p => cases p with
        | zero => rfl
        | succ p => omega
    have := chosen_chr (E := ⟨Ex.rulesCont, 65535, 0, Ex.fAll, [97, 97, 98]⟩) (r := r) (p := p)
      (cs := [97, 98]) (c := 97) (j := 0) (xs := [Ex.chr 97 0, Ex.chr 98 1])
      (x := Ex.chr 97 0) (by rw [h2]; rfl) rfl rfl rfl (by simp) hc (by omega) (by rw [h1]; decide)
    simp only [hc] at this
    exact this
  obtain ⟨r', h1, h2, h3, h4, _⟩ := C18_continue_extends B (r := .mk' 65535 0 3) (by decide)
    ⟨by decide, by simp [Results.mk'], by decide⟩
    (.cons _ _ _ 0 2 (Ex.chr 97 0) 1 0 false (by decide) (hch _ rfl rfl 0 (by decide)) rfl (by decide) (.inl rfl)
      (.cons _ _ _ 1 2 (Ex.chr 97 0) 2 0 false (by decide) (hch _ rfl rfl 1 (by decide)) rfl (by decide) (.inl rfl)
        (.nil _ 2)))
    (by decide)
    (chosen_chr (cs := [97, 98]) (c := 98) (j := 1) (x := Ex.chr 98 1) rfl rfl rfl rfl (by decide) rfl
      (by decide) (by decide))
    rfl (by decide) (by
      rintro (h | ⟨h, _⟩)
      · cases h
      · cases h)
  exact ⟨r', h1, h2, h3, h4⟩

/-- C19.  A push rule pushes one entry: the state to return to and the id of the rule. -/
theorem C19_push {tr : Traits} {R : Rules} {xss : List (List SRule)} {f : Flags}
    {inp : List Nat} {sm : Internals} (B : BuiltFor tr R xss f inp sm) (hrec : f.recursive = true)
    {r : Results} (hp : r.second < r.eoi) (hr : ROk ⟨xss, tr.npos, R.eoi, f, inp⟩ r) {x : SRule} {k next : Nat}
    {b : Bool} (hch : LexEnv.Chosen ⟨xss, tr.npos, R.eoi, f, inp⟩ { r with first := r.second } r.second x k next b)
    (hid : x.1.id ≠ tr.npos - 1) (hid' : x.1.id ≠ R.eoi) (hpop : x.1.popDfa = false)
    (hpush : x.1.pushDfa ≠ tr.npos) :
    ∃ r', Returns f tr.npos (bytesOf tr) sm inp r (.ok r') ∧ r'.id = x.1.id ∧ r'.second = k ∧
      r'.stack = (x.1.pushDfa, x.1.id) :: r.stack ∧ r'.state = if f.multiState then next else r.state := by
  refine ⟨_, (call_iff B (Nat.le_of_lt hp) hr _).2 (.token _ _ _ x k next b hp hch (accept_plain (.inr hpop)) hid ?_),
    rfl, rfl, ?_, rfl⟩
  · rintro (h | ⟨_, h, _⟩)
    · exact hid' h
    · rw [hpop] at h; cases h
  · exact if_pos ⟨hrec, hpush⟩

/-- C19.  A pop rule removes the entry on top of the stack and returns to its state. -/
theorem C19_pop {tr : Traits} {R : Rules} {xss : List (List SRule)} {f : Flags}
    {inp : List Nat} {sm : Internals} (B : BuiltFor tr R xss f inp sm) (hrec : f.recursive = true)
    (hms : f.multiState = true)
    {r : Results} (hp : r.second < r.eoi) (hr : ROk ⟨xss, tr.npos, R.eoi, f, inp⟩ r) {x : SRule} {k next : Nat}
    {b : Bool} (hch : LexEnv.Chosen ⟨xss, tr.npos, R.eoi, f, inp⟩ { r with first := r.second } r.second x k next b)
    (hid : x.1.id ≠ tr.npos - 1) (hid' : x.1.id ≠ R.eoi) (hpop : x.1.popDfa = true) {e : Nat × Nat}
    {st : List (Nat × Nat)} (hst : r.stack = e :: st) (htop : ∀ e' st', st = e' :: st' → e'.2 ≠ R.eoi) :
    ∃ r', Returns f tr.npos (bytesOf tr) sm inp r (.ok r') ∧ r'.id = x.1.id ∧ r'.second = k ∧
      r'.stack = st ∧ r'.state = e.1 := by
  have hacc : LexEnv.accept ⟨xss, tr.npos, R.eoi, f, inp⟩ x.1 { r with first := r.second } k next b =
      .ok { r with first := r.second, second := k, stack := st, bol := if f.bol then b else r.bol, state := e.1 } := by
    unfold LexEnv.accept
    simp only [hrec, hpop, hst, hms, and_self, if_true]
  refine ⟨_, (call_iff B (Nat.le_of_lt hp) hr _).2 (.token _ _ _ x k next b hp hch hacc hid ?_), rfl, rfl, rfl, rfl⟩
  rintro (h | ⟨_, _, e', st', h, h'⟩)
  · exact hid' h
  · exact htop e' st' h h'

/-- C19.  A pop rule on an empty stack throws. -/
theorem C19_underflow {tr : Traits} {R : Rules} {xss : List (List SRule)} {f : Flags}
    {inp : List Nat} {sm : Internals} (B : BuiltFor tr R xss f inp sm) (hrec : f.recursive = true)
    {r : Results} (hp : r.second < r.eoi) (hr : ROk ⟨xss, tr.npos, R.eoi, f, inp⟩ r) {x : SRule} {k next : Nat}
    {b : Bool} (hch : LexEnv.Chosen ⟨xss, tr.npos, R.eoi, f, inp⟩ { r with first := r.second } r.second x k next b)
    (hpop : x.1.popDfa = true) (hst : r.stack = []) (o : M Results) :
    Returns f tr.npos (bytesOf tr) sm inp r o ↔ o = .error (.throw "Stack underflow in lookup_state::pop().") := by
  have hacc : LexEnv.accept ⟨xss, tr.npos, R.eoi, f, inp⟩ x.1 { r with first := r.second } k next b =
      .error (.throw "Stack underflow in lookup_state::pop().") := by
    unfold LexEnv.accept
    simp only [hrec, hpop, hst, and_self, if_true]
  rw [call_iff B (Nat.le_of_lt hp) hr]
  exact lex_throw (r := { r with first := r.second }) hp hch hacc o

/-- The first `(` of `"(())"` pushes, the first `)` pops; a `)` too many throws. -/
example : (∃ r', Returns Ex.fRec 65535 1 (Ex.machine Ex.RPar) [40, 40, 41, 41] (.mk' 65535 0 4) (.ok r') ∧
      r'.id = 2 ∧ r'.second = 1 ∧ r'.stack = [(0, 2)] ∧ r'.state = 1) ∧
    (∃ r', Returns Ex.fRec 65535 1 (Ex.machine Ex.RPar) [40, 40, 41, 41]
      ⟨2, 65535, 1, 2, 4, false, 1, [(1, 2), (0, 2)]⟩ (.ok r') ∧
      r'.id = 3 ∧ r'.second = 3 ∧ r'.stack = [(0, 2)] ∧ r'.state = 1) ∧
    Returns Ex.fRec 65535 1 (Ex.machine Ex.RPar) [40, 40, 41, 41] ⟨2, 65535, 1, 2, 4, false, 1, []⟩
      (.error (.throw "Stack underflow in lookup_state::pop().")) := by
  have B := exPar_built [40, 40, 41, 41] (by decide)
  refine ⟨?_, ?_, ?_⟩
  · exact C19_push B rfl (r := .mk' 65535 0 4) (by decide) ⟨by decide, by simp [Results.mk'], by decide⟩
      (chosen_chr (cs := [97, 40]) (c := 40) (j := 1) (x := Ex.chr 40 2 1 0) rfl rfl rfl rfl (by decide) rfl
        (by decide) (by decide)) (by decide) (by decide) rfl (by decide)
  · exact C19_pop B rfl rfl (r := ⟨2, 65535, 1, 2, 4, false, 1, [(1, 2), (0, 2)]⟩) (by decide)
      ⟨by decide, by decide, by decide⟩
      (chosen_chr (cs := [40, 41, 99]) (c := 41) (j := 1) (x := Ex.chr 41 3 65535 65535 true) rfl rfl rfl rfl
        (by decide) rfl (by decide) (by decide)) (by decide) (by decide) rfl rfl (by
          intro e' st' h; cases h; decide)
  · exact (C19_underflow B rfl (r := ⟨2, 65535, 1, 2, 4, false, 1, []⟩) (by decide)
      ⟨by decide, by decide, by decide⟩
      (chosen_chr (cs := [40, 41, 99]) (c := 41) (j := 1) (x := Ex.chr 41 3 65535 65535 true) rfl rfl rfl rfl
        (by decide) rfl (by decide) (by decide)) rfl rfl _).2 rfl

/-- C19.  Over any history of calls on a recursive lexer the stack is what the pushes and
pops of the accepted matches make of it; after a well bracketed sequence it is what it was. -/
theorem C19_history {tr : Traits} {R : Rules} {xss : List (List SRule)} {f : Flags}
    {inp : List Nat} {sm : Internals} (B : BuiltFor tr R xss f inp sm) {r : Results} (hp : r.second ≤ r.eoi)
    (hr : ROk ⟨xss, tr.npos, R.eoi, f, inp⟩ r) {rs : List Results}
    (h : Lexer.Calls ⟨f, tr.npos, bytesOf tr, sm, inp⟩ r rs) {z : Results} (hz : (r :: rs).getLast? = some z) :
    ∃ evs, Steps ⟨xss, tr.npos, R.eoi, f, inp⟩ r evs z ∧ stackAfter evs r.stack = some z.stack ∧
      (Balanced evs → z.stack = r.stack) := by
  suffices ∃ evs, Steps ⟨xss, tr.npos, R.eoi, f, inp⟩ r evs z by
    obtain ⟨evs, g⟩ := this
    have h1 := steps_stack g
    refine ⟨evs, g, h1, fun hb => ?_⟩
    rw [stackAfter_balanced hb] at h1
    exact (Option.some.inj h1).symm
  induction h with
  | nil r => simp at hz; subst hz; exact ⟨[], .nil _ _ rfl rfl⟩
  | cons r r' rs h1 h2 ih =>
    have hL := (call_iff B hp hr _).1 h1
    have Y := call_yields hp h1
    have hr' : ROk ⟨xss, tr.npos, R.eoi, f, inp⟩ r' :=
      lex_rok B.states hL ⟨hr.state, hr.stack, hr.eoi⟩ rfl
    obtain ⟨e2, g2⟩ := ih (by have := Y.hi; have := Y.eoi; simp only at *; omega) hr' (by simpa using hz)
    obtain ⟨e1, g1⟩ := lex_steps hL rfl
    exact ⟨_, (Steps.congr g1 (a' := r) rfl rfl).trans g2⟩

/-- Four calls on `"(())"`: the stack is empty again. -/
example : ∃ rs, Lexer.Calls ⟨Ex.fRec, 65535, 1, Ex.machine Ex.RPar, [40, 40, 41, 41]⟩ (.mk' 65535 0 4) rs ∧
    rs.map (fun r => (r.id, r.stack, r.state)) =
      [(2, [(0, 2)], 1), (2, [(1, 2), (0, 2)], 1), (3, [(0, 2)], 1), (3, [], 0)] := by
  have h : (Ex.calls ⟨Ex.fRec, 65535, 1, Ex.machine Ex.RPar, [40, 40, 41, 41]⟩ 5 4 (.mk' 65535 0 4)).map
      (·.map fun r => (r.id, r.stack, r.state)) =
      some [(2, [(0, 2)], 1), (2, [(1, 2), (0, 2)], 1), (3, [(0, 2)], 1), (3, [], 0)] := by decide +kernel
  cases hc : Ex.calls ⟨Ex.fRec, 65535, 1, Ex.machine Ex.RPar, [40, 40, 41, 41]⟩ 5 4 (.mk' 65535 0 4) with
  | none => rw [hc] at h; cases h
  | some rs =>
    rw [hc] at h
    exact ⟨rs, Ex.calls_sound hc, Option.some.inj h⟩

/-- C19.  Hence a pop returns to the state named by the push it pairs with. -/
theorem C19_pop_matches_push {E : LexEnv} (hms : E.flags.multiState = true) {r z : Results} {e : Nat × Nat}
    {evs : List Ev} (hb : Balanced evs) (h : Steps E r (.push e :: (evs ++ [.pop])) z) :
    z.stack = r.stack ∧ z.state = e.1 := by
  obtain ⟨b, h1, h2⟩ := steps_append (l := .push e :: evs) h
  have h3 := steps_stack h1
  rw [stackAfter, stackAfter_balanced hb] at h3
  have := steps_pop h2 (Option.some.inj h3).symm
  exact ⟨this.1, this.2 hms⟩

/-- Two parentheses inside each other. -/
example : Balanced [.push (1, 2), .keep, .pop] ∧
    ∃ z, Steps ⟨Ex.rulesPar, 65535, 0, Ex.fRec, [40, 40, 99, 41, 41]⟩ (.mk' 65535 0 5)
      (.push (0, 2) :: ([.push (1, 2), .keep, .pop] ++ [.pop])) z ∧ z.state = 0 := by
  refine ⟨.pair _ [.keep] [] (.keep _ .nil) .nil, ⟨0, 65535, 0, 5, 5, false, 0, []⟩, ?_, rfl⟩
  · refine .step _ (.mk' 65535 0 5) _ _ 0 (Ex.chr 40 2 1 0) _ _ _ _ rfl rfl
      (chosen_chr (cs := [97, 40]) (c := 40) (j := 1) rfl rfl rfl rfl (by decide) rfl (by decide) (by decide)) rfl ?_
    refine .step _ _ _ _ 1 (Ex.chr 40 2 1 1) _ _ _ _ rfl rfl
      (chosen_chr (cs := [40, 41, 99]) (c := 40) (j := 0) rfl rfl rfl rfl (by decide) rfl (by decide) (by decide)) rfl ?_
    refine .step _ _ _ _ 2 (Ex.chr 99 65534 1) _ _ _ _ rfl rfl
      (chosen_chr (cs := [40, 41, 99]) (c := 99) (j := 2) rfl rfl rfl rfl (by decide) rfl (by decide) (by decide)) rfl ?_
    refine .step _ _ _ _ 3 (Ex.chr 41 3 65535 65535 true) _ _ _ _ rfl rfl
      (chosen_chr (cs := [40, 41, 99]) (c := 41) (j := 1) rfl rfl rfl rfl (by decide) rfl (by decide) (by decide)) rfl ?_
    refine .step _ _ _ _ 4 (Ex.chr 41 3 65535 65535 true) _ _ _ _ rfl rfl
      (chosen_chr (cs := [40, 41, 99]) (c := 41) (j := 1) rfl rfl rfl rfl (by decide) rfl (by decide) (by decide)) rfl ?_
    exact .nil _ _ rfl rfl

end Lexertl.Props

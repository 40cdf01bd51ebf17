import Verif.Spec.Stuck
import Verif.Props.Lookahead
import Verif.Props.CutStates

/-
C72 for all lexers: several lexer states, the stack, skipped tokens, `^`, empty matches.
-/
namespace Lexertl.Props
open Spec

namespace AnyLookahead

section
variable {E : LexEnv} {inp' : List Nat} {q n' : Nat} (hsame : E.inp.take q = inp'.take q) (hn' : q ≤ n')

include hsame in
theorem same {p k : Nat} (h : k ≤ q) : text E.inp p k = text inp' p k := by rw [← text_take h, hsame, text_take h]

include hsame in
theorem char {k : Nat} (h : k < q) : E.inp[k]? = inp'[k]? := by
  rw [← List.getElem?_take_of_lt h, hsame, List.getElem?_take_of_lt h]

theorem stuck_at {xs : List SRule} {p : Nat} (hs : Stuck E.rules E.inp p q) (hxs : xs ∈ E.rules) (hp : p < q) {k : Nat} (hk : q ≤ k) {b : Bool} :
    ∀ e ∈ xs.map (·.2), ¬ LineMatch b e (text E.inp p k) := by
  intro e he
  obtain ⟨x, hx, rfl⟩ := List.mem_map.1 he
  rw [text_append (Nat.le_of_lt hp) hk]
  exact hs xs hxs x hx _ b

include hsame in
theorem stuck_at' {xs : List SRule} {p : Nat} (hs : Stuck E.rules E.inp p q) (hxs : xs ∈ E.rules) (hp : p < q) {k : Nat} (hk : q ≤ k) {b : Bool} :
    ∀ e ∈ xs.map (·.2), ¬ LineMatch b e (text inp' p k) := by
  intro e he
  obtain ⟨x, hx, rfl⟩ := List.mem_map.1 he
  rw [text_append (Nat.le_of_lt hp) hk, ← same hsame (Nat.le_refl q)]
  exact hs xs hxs x hx _ b

include hsame in
theorem noMatch {xs : List SRule} {p n : Nat} (hs : Stuck E.rules E.inp p q) (hxs : xs ∈ E.rules) (hp : p < q) (hn : q ≤ n) {b : Bool}
    (h : NoMatch (LineMatch b) (xs.map (·.2)) E.inp p n) : NoMatch (LineMatch b) (xs.map (·.2)) inp' p n' := by
  intro k h1 h2
  by_cases hk : k < q
  · rw [← same hsame (Nat.le_of_lt hk)]
    exact h k h1 (by omega)
  · exact stuck_at' hsame hs hxs hp (by omega)

include hsame hn' in
theorem chosen {r : Results} {p : Nat} (hs : Stuck E.rules E.inp p q) (hp : p < q) (hr : q ≤ r.eoi) {x : SRule} {k next : Nat} {b : Bool} (h : E.Chosen r p x k next b) :
    LexEnv.Chosen { E with inp := inp' } (withEnd n' r) p x k next b ∧ p ≤ k ∧ k < q := by
  cases h with
  | text xs x k j g1 g2 g3 =>
    have hxs := List.mem_of_getElem? g1
    have hk : k < q := Nat.lt_of_not_le fun hk => by
      obtain ⟨e, e1, e2⟩ := g3.hit
      exact stuck_at hs hxs hp hk e (List.mem_of_getElem? e1) e2
    have hpk := g3.nonempty
    rw [char hsame (show k - 1 < q by omega)]
    refine ⟨.text xs x k j g1 g2 ⟨g3.nonempty, Nat.le_trans (Nat.le_of_lt hk) hn', ?_, ?_, fun k' h1 h2 => ?_⟩, by omega, hk⟩
    · obtain ⟨e, e1, e2⟩ := g3.hit
      exact ⟨e, e1, same hsame (Nat.le_of_lt hk) ▸ e2⟩
    · have := g3.earliest
      rw [same hsame (Nat.le_of_lt hk)] at this
      exact this
    · by_cases hk' : k' < q
      · show ∀ e ∈ _, ¬ LineMatch _ e (text inp' p k')
        rw [← same hsame (Nat.le_of_lt hk')]
        exact g3.longest k' h1 (by omega)
      · exact stuck_at' hsame hs hxs hp (by omega)
  | empty xs x j g1 g2 g3 g4 => exact ⟨.empty xs x j g1 g2 (noMatch hsame hs (List.mem_of_getElem? g1) hp hr g3) g4, Nat.le_refl _, hp⟩

/-- `P` tells that the position may be used, and is kept by what a call does. -/
structure Keeps (E : LexEnv) (q : Nat) (P : Results → Nat → M Results → Prop) : Prop where
  stuck : ∀ r p o, E.Lex r p o → P r p o → Stuck E.rules E.inp p q
  skip : ∀ r r' p x k next b o, E.Chosen r p x k next b → E.accept x.1 r k next b = .ok r' → p ≤ k → P r p o → P { r' with first := k } k o
  again : ∀ r r' p x k next b o, E.Chosen r p x k next b → E.accept x.1 r k next b = .ok r' → p ≤ k → E.continues x.1 r' → P r p o → P r' k o

include hsame hn' in
theorem lex {P : Results → Nat → M Results → Prop} (hP : Keeps E q P) {r : Results} {p : Nat} {o : M Results} (h : E.Lex r p o) : P r p o → p < q → q ≤ r.eoi →
    LexEnv.Lex { E with inp := inp' } (withEnd n' r) p (o.map (withEnd n')) := by
  have ha : ∀ (x : Rule) (r : Results) (k next : Nat) (b : Bool),
      LexEnv.accept { E with inp := inp' } x (withEnd n' r) k next b = (E.accept x r k next b).map (withEnd n') := fun x r k next b => CutStates.accept x r k next b
  induction h with
  | eoi r => intro _ h1 h2; omega
  | none r p xs c g1 g2 g3 g4 g5 =>
    intro hp h1 h2
    have hs := hP.stuck _ _ _ (.none r p xs c g1 g2 g3 g4 g5) hp
    exact .none (withEnd n' r) p xs c (Nat.lt_of_lt_of_le h1 hn') g2 (noMatch hsame hs (List.mem_of_getElem? g2) h1 h2 g3) g4 ((char hsame h1).symm.trans g5)
  | throw r p x k next b e g1 g2 g3 =>
    intro hp h1 h2
    have hs := hP.stuck _ _ _ (.throw r p x k next b e g1 g2 g3) hp
    exact .throw (withEnd n' r) p x k next b e (Nat.lt_of_lt_of_le h1 hn') (chosen hsame hn' hs h1 h2 g2).1 (by rw [ha, g3]; rfl)
  | skip r r' p x k next b o g1 g2 g3 g4 g5 ih =>
    intro hp h1 h2
    have hs := hP.stuck _ _ _ (.skip r r' p x k next b o g1 g2 g3 g4 g5) hp
    obtain ⟨c1, c2, c3⟩ := chosen hsame hn' hs h1 h2 g2
    obtain ⟨f1, f2⟩ := CutStates.accept_fields g3
    exact .skip (withEnd n' r) (withEnd n' r') p x k next b _ (Nat.lt_of_lt_of_le h1 hn') c1 (by rw [ha, g3]; rfl) g4
      (ih (hP.skip _ _ _ _ _ _ _ _ g2 g3 c2 hp) c3 (f1 ▸ h2))
  | again r r' p x k next b o g1 g2 g3 g4 g5 g6 ih =>
    intro hp h1 h2
    have hs := hP.stuck _ _ _ (.again r r' p x k next b o g1 g2 g3 g4 g5 g6) hp
    obtain ⟨c1, c2, c3⟩ := chosen hsame hn' hs h1 h2 g2
    obtain ⟨f1, f2⟩ := CutStates.accept_fields g3
    exact .again (withEnd n' r) (withEnd n' r') p x k next b _ (Nat.lt_of_lt_of_le h1 hn') c1 (by rw [ha, g3]; rfl) g4 g5
      (ih (hP.again _ _ _ _ _ _ _ _ g2 g3 c2 g5 hp) c3 (f1 ▸ h2))
  | token r r' p x k next b g1 g2 g3 g4 g5 =>
    intro hp h1 h2
    have hs := hP.stuck _ _ _ (.token r r' p x k next b g1 g2 g3 g4 g5) hp
    exact .token (withEnd n' r) (withEnd n' r') p x k next b (Nat.lt_of_lt_of_le h1 hn') (chosen hsame hn' hs h1 h2 g2).1 (by rw [ha, g3]; rfl) g4 g5

end

theorem mem_chosen {E : LexEnv} {r : Results} {p : Nat} {x : SRule} {k next : Nat} {b : Bool} (h : E.Chosen r p x k next b) : ∃ xs ∈ E.rules, x ∈ xs := by
  cases h with
  | text xs x k j g1 g2 g3 => exact ⟨xs, List.mem_of_getElem? g1, List.mem_of_getElem? g2⟩
  | empty xs x j g1 g2 g3 g4 => exact ⟨xs, List.mem_of_getElem? g1, List.mem_of_getElem? g2⟩

theorem accept_first {E : LexEnv} {x : Rule} {r r' : Results} {k next : Nat} {b : Bool} (h : E.accept x r k next b = .ok r') : r'.first = r.first := by
  unfold LexEnv.accept at h
  split at h
  · split at h
    · cases h
    · cases h; rfl
  · cases h; rfl

theorem keep_noContinue {E : LexEnv} {r r' : Results} {p : Nat} {x : SRule} {k next : Nat} {b : Bool} (h : NeverContinued E.rules E.eoi r) (hc : E.Chosen r p x k next b)
    (ha : E.accept x.1 r k next b = .ok r') : NeverContinued E.rules E.eoi r' ∧ ¬ E.continues x.1 r' := by
  obtain ⟨xs, hxs, hx⟩ := mem_chosen hc
  have hst : ∀ e ∈ r'.stack, e.2 ≠ E.eoi := by
    unfold LexEnv.accept at ha
    split at ha
    · split at ha
      · cases ha
      · next e st he =>
        cases ha
        exact fun d hd => h.2 d (he ▸ List.mem_cons_of_mem _ hd)
    · cases ha
      intro e he
      dsimp only at he
      split at he
      · rcases List.mem_cons.1 he with rfl | he
        · exact h.1 xs hxs x hx
        · exact h.2 e he
      · exact h.2 e he
  refine ⟨⟨h.1, hst⟩, ?_⟩
  rintro (hi | ⟨-, -, e, st, h1, h2⟩)
  · exact h.1 xs hxs x hx hi
  · exact hst e (h1 ▸ List.mem_cons_self) h2

/-- Without continued tokens, a call that ends with a token tried only positions up to the start of this token. -/
theorem first_ge {E : LexEnv} {r : Results} {p : Nat} {o : M Results} (h : E.Lex r p o) :
    NeverContinued E.rules E.eoi r → r.first = p → ∀ r', o = .ok r' → p ≤ r'.first := by
  induction h with
  | eoi r => intro _ hf r' h; cases h; exact Nat.le_of_eq hf.symm
  | none r p xs c g1 g2 g3 g4 g5 => intro _ hf r' h; cases h; exact Nat.le_refl _
  | throw r p x k next b e g1 g2 g3 => intro _ hf r' h; cases h
  | skip r r' p x k next b o g1 g2 g3 g4 g5 ih =>
    intro hc hf r1 h
    have := ih (keep_noContinue hc g2 g3).1 rfl r1 h
    refine Nat.le_trans ?_ this
    cases g2 with
    | text xs x k j a1 a2 a3 => exact Nat.le_of_lt a3.nonempty
    | empty xs x j a1 a2 a3 a4 => exact Nat.le_refl _
  | again r r' p x k next b o g1 g2 g3 g4 g5 g6 ih =>
    intro hc
    exact absurd g5 (keep_noContinue hc g2 g3).2
  | token r r' p x k next b g1 g2 g3 g4 g5 =>
    intro _ hf r1 h
    cases h
    exact Nat.le_of_eq (hf.symm.trans (accept_first g3).symm)

end AnyLookahead

/-- C72, for all lexers without continued tokens: a call that returns depends only on the characters up to a position `q` from which no rule can go on, from no position
between the start of the call and the start of the token it returns.  What follows may be anything, and the input may end there. -/
theorem C72_any_token {tr : Traits} {R : Rules} {xss : List (List SRule)} {f : Flags} {inp inp' : List Nat} {sm : Internals}
    (B : BuiltFor tr R xss f inp sm) (B' : BuiltFor tr R xss f inp' sm) {r : Results} (hr : ROk ⟨xss, tr.npos, R.eoi, f, inp⟩ r) (hc : NeverContinued xss R.eoi r)
    {q eoi' : Nat} (hq : r.second < q) (he : q ≤ r.eoi) (he' : q ≤ eoi') (hl' : eoi' ≤ inp'.length) (hsame : inp.take q = inp'.take q)
    {r' : Results} (h : Returns f tr.npos (bytesOf tr) sm inp r (.ok r')) (hstuck : ∀ p, r.second ≤ p → p ≤ r'.first → Stuck xss inp p q) :
    Returns f tr.npos (bytesOf tr) sm inp' (withEnd eoi' r) (.ok (withEnd eoi' r')) := by
  rw [call_iff B (by omega) hr] at h
  rw [call_iff B' (r := withEnd eoi' r) (Nat.le_of_lt (Nat.lt_of_lt_of_le hq he')) ⟨hr.state, hr.stack, hl'⟩]
  refine AnyLookahead.lex (E := ⟨xss, tr.npos, R.eoi, f, inp⟩) hsame he'
    (P := fun s p o => NeverContinued xss R.eoi s ∧ s.first = p ∧ r.second ≤ p ∧ o = .ok r') ⟨?_, ?_, ?_⟩ h ⟨hc, rfl, Nat.le_refl _, rfl⟩ hq he
  · rintro s p o hs ⟨h1, h2, h3, h4⟩
    exact hstuck p h3 (AnyLookahead.first_ge hs h1 h2 r' h4)
  · rintro s s' p x k next b o g1 g2 g3 ⟨h1, h2, h3, h4⟩
    exact ⟨(AnyLookahead.keep_noContinue (E := ⟨xss, tr.npos, R.eoi, f, inp⟩) h1 g1 g2).1, rfl, Nat.le_trans h3 g3, h4⟩
  · rintro s s' p x k next b o g1 g2 g3 g4 ⟨h1, h2, h3, h4⟩
    exact absurd g4 (AnyLookahead.keep_noContinue (E := ⟨xss, tr.npos, R.eoi, f, inp⟩) h1 g1 g2).2

/-- C72, for all lexers: if from no position before `q` a rule can go on over `q`, what a call does (a token or an exception) depends only on the characters up to `q`. -/
theorem C72_any {tr : Traits} {R : Rules} {xss : List (List SRule)} {f : Flags} {inp inp' : List Nat} {sm : Internals}
    (B : BuiltFor tr R xss f inp sm) (B' : BuiltFor tr R xss f inp' sm) {r : Results} (hr : ROk ⟨xss, tr.npos, R.eoi, f, inp⟩ r)
    {q eoi' : Nat} (hq : r.second < q) (he : q ≤ r.eoi) (he' : q ≤ eoi') (hl' : eoi' ≤ inp'.length) (hsame : inp.take q = inp'.take q)
    (hstuck : ∀ p, r.second ≤ p → p < q → Stuck xss inp p q) {o : M Results} (h : Returns f tr.npos (bytesOf tr) sm inp r o) :
    Returns f tr.npos (bytesOf tr) sm inp' (withEnd eoi' r) (o.map (withEnd eoi')) := by
  rw [call_iff B (by omega) hr] at h
  rw [call_iff B' (r := withEnd eoi' r) (Nat.le_of_lt (Nat.lt_of_lt_of_le hq he')) ⟨hr.state, hr.stack, hl'⟩]
  have key : ∀ {x : SRule} {s : Results} {p k next : Nat} {b : Bool}, LexEnv.Chosen ⟨xss, tr.npos, R.eoi, f, inp⟩ s p x k next b → r.second ≤ p ∧ p < q → q ≤ s.eoi → k < q :=
    fun g hp hs => (AnyLookahead.chosen (E := ⟨xss, tr.npos, R.eoi, f, inp⟩) hsame he' (hstuck _ hp.1 hp.2) hp.2 hs g).2.2
  refine AnyLookahead.lex (E := ⟨xss, tr.npos, R.eoi, f, inp⟩) hsame he' (P := fun s p o => (r.second ≤ p ∧ p < q) ∧ q ≤ s.eoi) ⟨?_, ?_, ?_⟩ h ⟨⟨Nat.le_refl _, hq⟩, he⟩ hq he
  · rintro s p o hs ⟨h1, h2⟩
    exact hstuck p h1.1 h1.2
  · rintro s s' p x k next b o g1 g2 g3 ⟨h1, h2⟩
    exact ⟨⟨Nat.le_trans h1.1 g3, key g1 h1 h2⟩, Nat.le_trans h2 (Nat.le_of_eq (CutStates.accept_fields g2).1.symm)⟩
  · rintro s s' p x k next b o g1 g2 g3 g4 ⟨h1, h2⟩
    exact ⟨⟨Nat.le_trans h1.1 g3, key g1 h1 h2⟩, Nat.le_trans h2 (Nat.le_of_eq (CutStates.accept_fields g2).1.symm)⟩

namespace AnyLookahead

theorem par_match {xs : List SRule} (hxs : xs ∈ Ex.rulesPar) {x : SRule} (hx : x ∈ xs) {b : Bool} {w : List Sym} (h : LineMatch b x.2 w) : ∃ c : Nat, c ≠ 120 ∧ w = [.ch c] := by
  have hC : ∀ (c id n q : Nat) (z : Bool), c ≠ 120 → LineMatch b (Ex.chr c id n q z).2 w → ∃ c : Nat, c ≠ 120 ∧ w = [.ch c] := by
    intro c id n q z hc h
    change LineMatch b (some (.chars [(c, c)])) w at h
    rw [line_noBol (by rfl)] at h
    obtain ⟨d, ⟨i, hi, h1, h2⟩, rfl⟩ := h
    cases List.mem_singleton.1 hi
    exact ⟨d, by dsimp only at h1 h2; omega, rfl⟩
  simp only [Ex.rulesPar, List.mem_cons, List.not_mem_nil, or_false] at hxs
  rcases hxs with rfl | rfl
  all_goals simp only [List.mem_cons, List.not_mem_nil, or_false] at hx
  · rcases hx with rfl | rfl <;> exact hC _ _ _ _ _ (by decide) h
  · rcases hx with rfl | rfl | rfl <;> exact hC _ _ _ _ _ (by decide) h

/-- The parenthesis lexer cannot go on over two characters, or over `x`. -/
theorem par_stuck {inp : List Nat} {p q : Nat} (hq : q ≤ inp.length) (h : p + 2 ≤ q ∨ (p < q ∧ inp[p]? = some 120)) : Stuck Ex.rulesPar inp p q := by
  intro xs hxs x hx w b hm
  obtain ⟨c, hc, hw⟩ := par_match hxs hx hm
  have hlen : (text inp p q).length = q - p := by
    simp only [text, List.length_map, List.length_take, List.length_drop]
    omega
  rcases h with h | ⟨h1, h2⟩
  · have := congrArg List.length hw
    simp only [List.length_append, List.length_singleton, hlen] at this
    omega
  · have := congrArg (·[0]?) hw
    rw [List.getElem?_append_left (by omega)] at this
    simp only [text, List.getElem?_map, List.getElem?_take_of_lt (show 0 < q - p by omega), List.getElem?_drop, Nat.add_zero, h2, Option.map_some] at this
    exact hc (Sym.ch.inj (Option.some.inj this).symm)

theorem chars {u v : List Nat} (hu : ∀ c ∈ u, c < 256) (hv : ∀ c ∈ v, c < 256) : ∀ c ∈ u ++ v, c < charsOf Ex.tr :=
  fun c hc => (List.mem_append.1 hc).elim (hu c) (hv c)

end AnyLookahead

/-- The hypotheses of `C72_any_token` are met by the parenthesis lexer: in state 1, on `c)a`, the `c` is skipped and `)` returns to state 0, whatever follows. -/
example {v : List Nat} (hv : ∀ c ∈ v, c < 256) :
    Returns Ex.fRec 65535 1 (Ex.machine Ex.RPar) ([40, 99, 41, 97] ++ v) ⟨2, 65535, 0, 1, ([40, 99, 41, 97] ++ v).length, false, 1, [(0, 2)]⟩
      (.ok ⟨3, 65535, 2, 3, ([40, 99, 41, 97] ++ v).length, false, 0, []⟩) := by
  have h0 : (lookupFuel Ex.fRec 65535 1 (Ex.machine Ex.RPar) [40, 99, 41, 97] 10 ⟨2, 65535, 0, 1, 4, false, 1, [(0, 2)]⟩).toOption = some ⟨3, 65535, 2, 3, 4, false, 0, []⟩ := by
    decide +kernel
  have h : Returns Ex.fRec 65535 1 (Ex.machine Ex.RPar) [40, 99, 41, 97] ⟨2, 65535, 0, 1, 4, false, 1, [(0, 2)]⟩ (.ok ⟨3, 65535, 2, 3, 4, false, 0, []⟩) := CutStates.par_call h0
  have hl : 4 ≤ ([40, 99, 41, 97] ++ v).length := by rw [List.length_append]; exact Nat.le_add_right _ _
  exact C72_any_token (tr := Ex.tr) (exPar_built _ (by decide)) (exPar_built _ (AnyLookahead.chars (by decide) hv)) ⟨by decide, by decide, by decide⟩ (by
    refine ⟨?_, by decide⟩
    decide) (q := 4) (by decide) (by decide) hl (Nat.le_refl _) (by rfl) h (fun p _ h2 => AnyLookahead.par_stuck (by decide) (.inl (Nat.add_le_add_right h2 2)))

/-- The hypotheses of `C72_any` are met by the parenthesis lexer: in state 1, what a call on `cx` does is the same whatever follows. -/
example {v : List Nat} (hv : ∀ c ∈ v, c < 256) {o : M Results} (h : Returns Ex.fRec 65535 1 (Ex.machine Ex.RPar) [99, 120] ⟨2, 65535, 0, 0, 2, false, 1, [(0, 2)]⟩ o) :
    Returns Ex.fRec 65535 1 (Ex.machine Ex.RPar) ([99, 120] ++ v) ⟨2, 65535, 0, 0, ([99, 120] ++ v).length, false, 1, [(0, 2)]⟩ (o.map (withEnd ([99, 120] ++ v).length)) := by
  have hl : 2 ≤ ([99, 120] ++ v).length := by rw [List.length_append]; exact Nat.le_add_right _ _
  exact C72_any (tr := Ex.tr) (exPar_built _ (by decide)) (exPar_built _ (AnyLookahead.chars (by decide) hv)) ⟨by decide, by decide, by decide⟩ (q := 2) (by decide) (by decide) hl
    (Nat.le_refl _) (by rfl) (fun p _ h2 => AnyLookahead.par_stuck (by decide) (by
      rcases p with _ | _ | p
      · exact .inl (Nat.le_refl _)
      · exact .inr ⟨by decide, by rfl⟩
      · omega)) h

end Lexertl.Props

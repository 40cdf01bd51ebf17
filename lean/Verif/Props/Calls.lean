import Verif.Proofs.Calls
import Verif.Proofs.Lex
import Verif.Model.Iterator
import Verif.Props.Example

/-
Properties C15, C16, C17, C18, C19, C36 and C42: successive calls of `lookup` on one
result object.
-/
namespace Lexertl.Props
open Spec

/-- C15.  For every state machine, input and result object inside the input, and any
number of successive calls: each result lies inside the input, starts at or after the
end of the previous one, and everything in between was taken by skip rules or by
continue rules. -/
theorem C15_tokens_in_order (L : Lexer) {r : Results} (hr : r.second ≤ r.eoi) {rs : List Results}
    (h : L.Calls r rs) (i : Nat) (a b : Results) (ha : (r :: rs)[i]? = some a)
    (hb : (r :: rs)[i + 1]? = some b) :
    a.second ≤ b.first ∧ b.first ≤ b.second ∧ b.second ≤ b.eoi ∧ b.eoi = r.eoi ∧
      L.Run r.eoi (fun s => L.IsSkip s ∨ L.IsCont s) a.second b.first := by
  induction h generalizing i a b with
  | nil r => simp at hb
  | cons r r' rs h1 h2 ih =>
    have Y := call_yields hr h1
    have he : r'.eoi = r.eoi := Y.eoi
    cases i with
    | zero =>
      simp only [List.getElem?_cons_zero, List.getElem?_cons_succ, Option.some.injEq] at ha hb
      subst ha
      subst hb
      exact ⟨Y.lo, Y.mid, by rw [Y.eoi]; exact Y.hi, Y.eoi, Y.gap⟩
    | succ i =>
      have := ih (by rw [he]; exact Y.hi) i a b (by simpa using ha) (by simpa using hb)
      rw [he] at this
      exact this

/-- C15.  What the returned token itself is: the end of input; or one unmatched
character; or the text taken by the rule whose ids are returned, preceded only by text of
continue rules. -/
theorem C15_token_shape (L : Lexer) {r r' : Results} (hr : r.second ≤ r.eoi) (h : L.Call r (.ok r')) :
    (r'.id = L.sm.eoi ∧ r'.userId = L.npos ∧ r'.second = r.eoi ∧ L.Run r.eoi L.IsCont r'.first r'.second) ∨
    (r'.id = L.npos ∧ r'.userId = L.npos ∧ r'.first < r.eoi ∧
      r'.second = (if L.flags.advance then r'.first + 1 else r'.first) ∧
      ∃ r0, r0.eoi = r.eoi ∧ L.TakesNone r0 r'.first) ∨
    (∃ q r0 s, r'.first ≤ q ∧ L.Run r.eoi L.IsCont r'.first q ∧ q < r.eoi ∧ r0.eoi = r.eoi ∧
      L.Takes r0 q r'.second s ∧ r'.id = s.id ∧ r'.userId = s.uid ∧ ¬ L.IsSkip s ∧ s.id ≠ L.sm.eoi) :=
  (call_yields hr h).tok

theorem takes_row {L : Lexer} {r : Results} {p k : Nat} {s : LuState} (hp : p ≤ r.eoi) (h : L.Takes r p k s) :
    ∃ rows ∈ L.sm.dfa, ∃ row ∈ rows, row[ixEnd]? ≠ some 0 ∧ row[ixId]? = some s.id := by
  obtain ⟨d, h1, A⟩ := attempt_inv hp h.1
  obtain ⟨row, h2, e, h3, h4, h5, _⟩ := A.row h.2
  refine ⟨d.rows, dfaAt_mem h1, row, h2, ?_, h5⟩
  rw [h3]
  simpa using h4

/-- Without skip and continue rules, and no pending popped entry, calls leave no gap. -/
theorem call_noGap (L : Lexer) (hN : L.NoSkip) (hrec : L.flags.recursive = false) {r r' : Results}
    (hr : r.second ≤ r.eoi) (h : L.Call r (.ok r')) :
    r'.first = r.second ∧ r'.second ≤ r.eoi ∧ r'.first ≤ r'.second ∧ r'.eoi = r.eoi := by
  have Y := call_yields hr h
  have none : ∀ p q, L.Run r.eoi (fun s => L.IsSkip s ∨ L.IsCont s) p q → q = p := by
    intro p q g
    cases g with
    | nil => rfl
    | snoc q k r0 s h1 h2 h3 h4 h5 =>
      obtain ⟨rows, m1, row, m2, m3, m4⟩ := takes_row (by omega) h4
      obtain ⟨n1, n2⟩ := hN rows m1 row m2 m3
      rw [m4] at n1 n2
      rcases h5 with h5 | h5 | h5
      · exact absurd (congrArg some h5) n1
      · exact absurd (congrArg some h5) n2
      · rw [hrec] at h5; exact absurd h5.1 (by decide)
  exact ⟨none _ _ Y.gap, Y.hi, Y.mid, Y.eoi⟩

/-- C15.  If no row of the machine carries the skip id or the end of input id, the
concatenation of the texts of any number of successive tokens is the input from where the
first call started to where the last call stopped. -/
theorem C15_tokens_tile_input (L : Lexer) (hN : L.NoSkip) (hrec : L.flags.recursive = false) {r : Results}
    (hr : r.second ≤ r.eoi) {rs : List Results} (h : L.Calls r rs) {z : Results}
    (hz : (r :: rs).getLast? = some z) :
    (rs.map (tokenText L.inp)).flatten = (L.inp.drop r.second).take (z.second - r.second) ∧
      r.second ≤ z.second := by
  induction h with
  | nil r =>
    simp at hz
    subst hz
    simp
  | cons r r' rs h1 _ ih =>
    obtain ⟨g1, g2, g3, g4⟩ := call_noGap L hN hrec hr h1
    obtain ⟨i1, i2⟩ := ih (by rw [g4]; exact g2) (by simpa using hz)
    refine ⟨?_, by omega⟩
    rw [List.map_cons, List.flatten_cons, i1]
    unfold tokenText
    rw [g1, show L.inp.drop r'.second = (L.inp.drop r.second).drop (r'.second - r.second) by
      rw [List.drop_drop]; congr 1; omega]
    rw [show z.second - r.second = (r'.second - r.second) + (z.second - r'.second) by omega, List.take_add]

/-- C15.  In that case, when the end of input is reported, everything was covered. -/
theorem C15_all_input_covered (L : Lexer) (hN : L.NoSkip) (hrec : L.flags.recursive = false)
    (hids : L.sm.eoi ≠ L.npos) {r : Results}
    (hr : r.second ≤ r.eoi) {rs : List Results} (h : L.Calls r rs) {z : Results}
    (hz : rs.getLast? = some z) (hend : z.id = L.sm.eoi) :
    (rs.map (tokenText L.inp)).flatten = (L.inp.drop r.second).take (r.eoi - r.second) := by
  have key : ∀ (r : Results) (rs : List Results), L.Calls r rs → r.second ≤ r.eoi → ∀ z, rs.getLast? = some z →
      z.id = L.sm.eoi → z.second = r.eoi := by
    intro r rs h
    induction h with
    | nil r => intro _ z hz; simp at hz
    | cons r r' rs h1 h2 ih =>
      intro hr z hz hend
      have Y := call_yields hr h1
      have he : r'.eoi = r.eoi := Y.eoi
      cases h2 with
      | nil =>
        simp at hz
        subst hz
        rcases Y.tok with t | t | ⟨q, r0, s, t⟩
        · exact t.2.2.1
        · rw [t.1] at hend; exact absurd hend.symm hids
        · exact absurd (t.2.2.2.2.2.1.symm.trans hend) t.2.2.2.2.2.2.2.2
      | cons r1 r2 rs2 g1 g2 =>
        rw [← he]
        exact ih (by rw [he]; exact Y.hi) z (by simpa using hz) hend
  have hz' : (r :: rs).getLast? = some z := by
    cases h with
    | nil => simp at hz
    | cons r r' rs h1 h2 => simpa using hz
  rw [(C15_tokens_tile_input L hN hrec hr h hz').1, key r rs h hr z hz hend]

/-- C16.  If the machine never takes an empty text and its end of line entries form no
cycle, every call comes to an end: it returns, throws or is undefined, but does not run
forever. -/
theorem C16_lookup_terminates (L : Lexer) (hE : L.EolEnds) (hN : L.NoEmptyText) {r : Results}
    (hr : r.second ≤ r.eoi) : ∃ o, L.Call r o :=
  ⟨_, nextLoop_fuel hE hN (r.eoi - r.second + 1) { r with first := r.second } r.second hr (by dsimp only; omega),
    r.eoi - r.second + 1, rfl⟩

/-- C16.  Under these conditions a call before the end of input consumes something. -/
theorem C16_lookup_progresses (L : Lexer) (hN : L.NoEmptyText) (ha : L.flags.advance = true)
    {r r' : Results} (hr : r.second < r.eoi) (h : L.Call r (.ok r')) : r.second < r'.second := by
  obtain ⟨_, fuel, h⟩ := h
  exact nextLoop_prog hN ha fuel { r with first := r.second } r' r.second rfl hr h

/-- C16.  A call at the end of input reports it. -/
theorem C16_reports_end (L : Lexer) {r : Results} (hr : r.second = r.eoi) (o : M Results) :
    L.Call r o ↔ o = .ok { r with first := r.eoi, id := L.sm.eoi, userId := L.npos } := by
  constructor
  · rintro ⟨h0, fuel, h⟩
    unfold lookupFuel at h
    cases fuel with
    | zero => exact absurd h.symm h0
    | succ n => rw [nextLoop, if_pos hr] at h; rw [← h, ← hr]
  · rintro rfl
    refine ⟨by simp, 1, ?_⟩
    rw [lookupFuel, nextLoop, if_pos hr, ← hr]

/-- C16.  So a loop that calls `lookup` until the end of input is reported makes at most
one call more than there are characters. -/
theorem C16_number_of_calls (L : Lexer) (hN : L.NoEmptyText) (ha : L.flags.advance = true)
    {r : Results} (hr : r.second ≤ r.eoi) {rs : List Results} (h : L.Calls r rs)
    (hrun : ∀ x ∈ rs.dropLast, x.id ≠ L.sm.eoi) : rs.length ≤ r.eoi - r.second + 1 := by
  induction h with
  | nil r => simp
  | cons r r' rs h1 h2 ih =>
    by_cases hlt : r.second < r.eoi
    · have Y := call_yields hr h1
      have he : r'.eoi = r.eoi := Y.eoi
      have hp := C16_lookup_progresses L hN ha hlt h1
      have := ih (by rw [he]; exact Y.hi) (by
        intro x hx
        refine hrun x ?_
        cases rs with
        | nil => cases hx
        | cons a b => rw [List.dropLast_cons_cons]; exact List.mem_cons_of_mem _ hx)
      have hh : r'.second ≤ r.eoi := Y.hi
      rw [List.length_cons]
      omega
    · have h' := (C16_reports_end L (by omega) _).1 h1
      cases h2 with
      | nil => simp
      | cons r1 r2 rs2 g1 g2 =>
        exfalso
        refine hrun r' (by rw [List.dropLast_cons_cons]; exact List.mem_cons_self ..) ?_
        injection h' with h'
        rw [h']

/-- C16.  A condition on the tables under which no empty text is ever taken: the start row
is no end row, and neither it nor the row for line starts has an end of line entry. -/
theorem C16_start_rows (L : Lexer)
    (h1 : ∀ rows ∈ L.sm.dfa, getCell rows 1 ixEnd = .ok 0)
    (h2 : L.flags.eol = true → ∀ rows ∈ L.sm.dfa, getCell rows 1 ixEol = .ok 0 ∧
      ∀ b, getCell rows 0 0 = .ok b → b ≠ 0 → getCell rows b ixEol = .ok 0) : L.NoEmptyText := by
  rintro r p s hp ⟨ha, hend⟩
  unfold attempt at ha
  obtain ⟨d, hd, ha⟩ := bind_ok ha
  have hm := dfaAt_mem hd
  obtain ⟨s0, h0, ha⟩ := bind_ok ha
  obtain ⟨s1, hs1, ha⟩ := bind_ok ha
  obtain ⟨⟨s2, curr, t2⟩, hs2, ha⟩ := bind_ok ha
  have e0 : s0.endState = false ∧ s0.ptr = 1 := by
    unfold LuState.init at h0
    rw [h1 _ hm] at h0
    obtain ⟨_, hx, h0⟩ := bind_ok h0
    cases hx
    obtain ⟨_, _, h0⟩ := bind_ok h0
    obtain ⟨_, _, h0⟩ := bind_ok h0
    obtain ⟨_, _, h0⟩ := bind_ok h0
    cases h0
    exact ⟨rfl, rfl⟩
  have e1 : s1.endState = false ∧ (L.flags.eol = true → getCell d.rows s1.ptr ixEol = .ok 0) := by
    unfold LuState.bolStartState at hs1
    split at hs1
    · obtain ⟨b, hb, hs1⟩ := bind_ok hs1
      split at hs1 <;> rename_i hne <;> cases hs1
      · exact ⟨e0.1, fun he => (h2 he _ hm).2 b hb hne⟩
      · exact ⟨e0.1, fun he => by rw [e0.2]; exact (h2 he _ hm).1⟩
    · cases hs1
      exact ⟨e0.1, fun he => by rw [e0.2]; exact (h2 he _ hm).1⟩
  have e2 := scan_pos (p := p) _ (Nat.le_refl _) (fun _ => e1.2) (fun h => by rw [e1.1] at h; cases h) hs2
  refine absurd (?_ : p < p) (Nat.lt_irrefl _)
  unfold LuState.checkEol at ha
  dsimp only at ha
  split at ha
  · rename_i hc
    obtain ⟨e, he, ha⟩ := bind_ok ha
    split at ha
    · exact endStep_pos (s := { s2 with ptr := e, eolState := e }) (by omega) e2 ha hend
    · cases ha; exact e2 hend
  · cases ha
    exact e2 hend

/-- C16, with both conditions in terms of tables. -/
theorem C16_tables_terminate (L : Lexer) (hE : L.EolEnds)
    (h1 : ∀ rows ∈ L.sm.dfa, getCell rows 1 ixEnd = .ok 0)
    (h2 : L.flags.eol = true → ∀ rows ∈ L.sm.dfa, getCell rows 1 ixEol = .ok 0 ∧
      ∀ b, getCell rows 0 0 = .ok b → b ≠ 0 → getCell rows b ixEol = .ok 0) {r : Results}
    (hr : r.second ≤ r.eoi) : ∃ o, L.Call r o :=
  C16_lookup_terminates L hE (C16_start_rows L h1 h2) hr

/-- The lexer `a$`, `a`, `\n` on `"a\naab"`. -/
def exDollar : Lexer := ⟨Ex.fAll, 65535, 1, Ex.machine Ex.RDollar, [97, 10, 97, 97, 98]⟩

theorem exDollar_start : (∀ rows ∈ exDollar.sm.dfa, (getCell rows 1 ixEnd).toOption = some 0) ∧
    (∀ rows ∈ exDollar.sm.dfa, (getCell rows 1 ixEol).toOption = some 0 ∧
      (getCell rows 0 0).toOption = some 0) := by
  decide +kernel

theorem toOption_some {α : Type} {x : M α} {a : α} (h : x.toOption = some a) : x = .ok a := by
  cases x with
  | ok b => cases h; rfl
  | error e => cases h

theorem exDollar_noEmpty : exDollar.NoEmptyText := by
  refine C16_start_rows _ (fun rows h => toOption_some (exDollar_start.1 rows h)) fun _ rows h => ?_
  refine ⟨toOption_some (exDollar_start.2 rows h).1, fun b hb hne => ?_⟩
  rw [toOption_some (exDollar_start.2 rows h).2] at hb
  cases hb
  exact absurd rfl hne

/-- C15 and C16 apply to it: five calls yield `a$`, newline, `a`, `a`, and the unmatched
`b`, the sixth the end of input. -/
example : exDollar.EolEnds ∧ exDollar.NoEmptyText ∧ exDollar.NoSkip ∧
    ∃ rs, exDollar.Calls (.mk' 65535 0 5) rs ∧
      rs.map (fun r => (r.id, r.first, r.second)) =
        [(4, 0, 1), (5, 1, 2), (1, 2, 3), (1, 3, 4), (65535, 4, 5), (0, 5, 5)] := by
  refine ⟨Ex.eolEnds_of (by decide +kernel), exDollar_noEmpty, ?_, ?_⟩
  · unfold Lexer.NoSkip
    decide +kernel
  · have h : (Ex.calls exDollar 5 6 (.mk' 65535 0 5)).map (·.map fun r => (r.id, r.first, r.second)) =
        some [(4, 0, 1), (5, 1, 2), (1, 2, 3), (1, 3, 4), (65535, 4, 5), (0, 5, 5)] := by decide +kernel
    cases hc : Ex.calls exDollar 5 6 (.mk' 65535 0 5) with
    | none => rw [hc] at h; cases h
    | some rs =>
      rw [hc] at h
      exact ⟨rs, Ex.calls_sound hc, Option.some.inj h⟩

/-- `a` continues, `b` ends: on `"aac"`. -/
def exCont : Lexer := ⟨Ex.fAll, 65535, 1, Ex.machine Ex.RCont, [97, 97, 99]⟩

/-- C15, the gap: text matched by continue rules is dropped if no rule completes the
token.  Here the first result is the unmatched `c`; the two `a` before it belong to no
token, although neither is matched by a skip rule. -/
theorem C15_continued_text_dropped : ∃ rs, exCont.Calls (.mk' 65535 0 3) rs ∧
    rs.map (fun r => (r.id, r.first, r.second)) = [(65535, 2, 3), (0, 3, 3)] ∧
    ∀ rows ∈ exCont.sm.dfa, ∀ row ∈ rows, row[ixId]? ≠ some 65534 := by
  have h : (Ex.calls exCont 5 2 (.mk' 65535 0 3)).map (·.map fun r => (r.id, r.first, r.second)) =
      some [(65535, 2, 3), (0, 3, 3)] := by decide +kernel
  cases hc : Ex.calls exCont 5 2 (.mk' 65535 0 3) with
  | none => rw [hc] at h; cases h
  | some rs =>
    rw [hc] at h
    exact ⟨rs, Ex.calls_sound hc, Option.some.inj h, by decide +kernel⟩

/-- One increment of an iterator (or the lookup of its constructor) succeeds. -/
def Advances (L : Lexer) (it it' : Iter) : Prop :=
  ∃ fuel, it.advance L.flags L.npos L.bytes L.sm L.inp fuel = .ok it'

/-- The iterators visited by successive increments. -/
inductive Visits (L : Lexer) : Iter → List Iter → Prop
  | nil (it : Iter) : Visits L it []
  | cons (it it' : Iter) (its : List Iter) : Advances L it it' → Visits L it' its → Visits L it (it' :: its)

theorem advances_call {L : Lexer} {it it' : Iter} (h : Advances L it it') :
    it.live = true ∧ L.Call it.results (.ok it'.results) ∧
      it'.live = (it'.results.first != it'.results.eoi) := by
  obtain ⟨fuel, h⟩ := h
  unfold Iter.advance at h
  split at h
  · rename_i hl
    obtain ⟨r, h1, h⟩ := bind_ok h
    cases h
    exact ⟨hl, ⟨by simp, fuel, h1⟩, rfl⟩
  · cases h

/-- Run `n` increments. -/
def visit (L : Lexer) (fuel : Nat) : Nat → Iter → Option (List Iter)
  | 0, _ => some []
  | n + 1, it =>
    match it.advance L.flags L.npos L.bytes L.sm L.inp fuel with
    | .ok it' => (visit L fuel n it').map (it' :: ·)
    | .error _ => none

theorem visit_sound {L : Lexer} {fuel n : Nat} {it : Iter} {its : List Iter}
    (h : visit L fuel n it = some its) : Visits L it its := by
  induction n generalizing it its with
  | zero => cases h; exact .nil it
  | succ n ih =>
    unfold visit at h
    split at h
    · rename_i it' h'
      cases hc : visit L fuel n it' with
      | none => rw [hc] at h; cases h
      | some l =>
        rw [hc] at h
        cases h
        exact .cons _ _ _ ⟨fuel, h'⟩ (ih hc)
    · cases h

/-- C36.  After any increment (or construction) the iterator equals the default
constructed end iterator exactly if its token starts at the end of the input; and then
the token is the empty one with the end of input id. -/
theorem C36_end_iff (L : Lexer) {it it' : Iter} (hr : it.results.second ≤ it.results.eoi)
    (h : Advances L it it') :
    (it'.eq (Iter.endIter L.npos) = true ↔ it'.results.first = it'.results.eoi) ∧
    (it'.eq (Iter.endIter L.npos) = true →
      it'.results.id = L.sm.eoi ∧ it'.results.second = it'.results.first) := by
  obtain ⟨h1, h2, h3⟩ := advances_call h
  have key : it'.eq (Iter.endIter L.npos) = true ↔ it'.results.first = it'.results.eoi := by
    unfold Iter.eq Iter.endIter
    rw [h3]
    by_cases he : it'.results.first = it'.results.eoi <;> simp [he]
  refine ⟨key, fun g => ?_⟩
  have he := key.1 g
  have Y := call_yields hr h2
  have Ye : it'.results.eoi = it.results.eoi := Y.eoi
  have Ym : it'.results.first ≤ it'.results.second := Y.mid
  have Yh : it'.results.second ≤ it.results.eoi := Y.hi
  refine ⟨?_, by omega⟩
  rcases Y.tok with t | t | ⟨q, r0, s, t⟩
  · exact t.1
  · have := t.2.2.1; simp only at *; omega
  · have := t.1; have := t.2.2.1; simp only at *; omega

/-- C36.  An iterator that compares unequal to the end iterator is usable: the next increment is a plain call of `lookup`, no null pointer is
dereferenced. -/
theorem C36_not_end_usable (L : Lexer) {it' : Iter}
    (hne : it'.eq (Iter.endIter L.npos) = false) (fuel : Nat) :
    it'.advance L.flags L.npos L.bytes L.sm L.inp fuel =
      (lookupFuel L.flags L.npos L.bytes L.sm L.inp fuel it'.results).map
        fun r => ⟨r, r.first != r.eoi⟩ := by
  have hl : it'.live = true := by
    cases hl : it'.live with
    | true => rfl
    | false => simp [Iter.eq, Iter.endIter, hl] at hne
  unfold Iter.advance
  rw [if_pos hl]
  cases lookupFuel L.flags L.npos L.bytes L.sm L.inp fuel it'.results <;> rfl

/-- C36.  A loop that increments until the iterator equals the end iterator takes at most
as many steps as there are characters, plus one, if the machine takes no empty text
(construction is the first step). -/
theorem C36_reaches_end (L : Lexer) (hN : L.NoEmptyText) (ha : L.flags.advance = true) {it : Iter}
    (hr : it.results.second ≤ it.results.eoi) {its : List Iter} (h : Visits L it its) :
    its.length ≤ it.results.eoi - it.results.second + 1 := by
  induction h with
  | nil it => simp
  | cons it it' its h1 h2 ih =>
    obtain ⟨l1, c1, e1⟩ := advances_call h1
    have Y := call_yields hr c1
    have Ye : it'.results.eoi = it.results.eoi := Y.eoi
    have Yh : it'.results.second ≤ it.results.eoi := Y.hi
    by_cases hlt : it.results.second < it.results.eoi
    · have hp := C16_lookup_progresses L hN ha hlt c1
      have := ih (by omega)
      rw [List.length_cons]
      omega
    · have h' := (C16_reports_end L (by omega) _).1 c1
      cases h2 with
      | nil => simp
      | cons _ it2 its2 g1 g2 =>
        exfalso
        have l2 := (advances_call g1).1
        rw [e1] at l2
        injection h' with h'
        rw [h'] at l2
        simp at l2

/-- C36.  Iterators that compare equal go through the same tokens (for result objects
without a stack; a copy compares equal to its original). -/
theorem C36_equal_iterators_agree (L : Lexer) {a b : Iter} (he : a.eq b = true)
    (hst : a.results.stack = b.results.stack) (hl : a.live = true) (its : List Iter) :
    Visits L a its ↔ Visits L b its := by
  have : a = b := by
    obtain ⟨⟨a1, a2, a3, a4, a5, a6, a7, a8⟩, la⟩ := a
    obtain ⟨⟨b1, b2, b3, b4, b5, b6, b7, b8⟩, lb⟩ := b
    simp only at hl hst
    subst hl
    subst hst
    simp only [Iter.eq, Results.same, Bool.true_eq_false, if_false, Bool.and_eq_true, beq_iff_eq] at he
    obtain ⟨rfl, ⟨⟨⟨⟨⟨⟨rfl, rfl⟩, rfl⟩, rfl⟩, rfl⟩, rfl⟩, rfl⟩⟩ := he
    rfl
  rw [this]

/-- Nested parentheses, on `")"`. -/
def exPar : Lexer := ⟨Ex.fRec, 65535, 1, Ex.machine Ex.RPar, [41]⟩

/-- C36.  For recursive lexers equality of iterators does not compare the stacks, and two
iterators that compare equal may go different ways: here one yields a token, the other
throws. -/
theorem C36_equality_ignores_stack : ∃ a b : Iter, a.eq b = true ∧ (∃ it, Advances exPar a it) ∧
    ¬ ∃ it, Advances exPar b it := by
  refine ⟨⟨⟨0, 65535, 0, 0, 1, true, 1, [(0, 2)]⟩, true⟩, ⟨⟨0, 65535, 0, 0, 1, true, 1, []⟩, true⟩, rfl, ?_, ?_⟩
  · have h : (Iter.advance exPar.flags exPar.npos exPar.bytes exPar.sm exPar.inp 3
      ⟨⟨0, 65535, 0, 0, 1, true, 1, [(0, 2)]⟩, true⟩).isOk = true := by decide +kernel
    cases hc : Iter.advance exPar.flags exPar.npos exPar.bytes exPar.sm exPar.inp 3
      ⟨⟨0, 65535, 0, 0, 1, true, 1, [(0, 2)]⟩, true⟩ with
    | error e => rw [hc] at h; cases h
    | ok it => exact ⟨it, 3, hc⟩
  · rintro ⟨it, h⟩
    obtain ⟨_, h0, _⟩ := advances_call h
    have h1 : (lookupFuel exPar.flags exPar.npos exPar.bytes exPar.sm exPar.inp 1
        ⟨0, 65535, 0, 0, 1, true, 1, []⟩).toOption = none ∧
        lookupFuel exPar.flags exPar.npos exPar.bytes exPar.sm exPar.inp 1
        ⟨0, 65535, 0, 0, 1, true, 1, []⟩ ≠ .error .fuel := by
      constructor
      · decide +kernel
      · intro hc
        have : (match lookupFuel exPar.flags exPar.npos exPar.bytes exPar.sm exPar.inp 1
          ⟨0, 65535, 0, 0, 1, true, 1, []⟩ with | .error .fuel => true | _ => false) = false := by decide +kernel
        rw [hc] at this
        cases this
    have := call_unique h0 (L := exPar) ⟨h1.2, 1, rfl⟩
    rw [← this] at h1
    cases h1.1

/-- Iterating over `"a\naab"` visits six iterators, the last one equal to the end. -/
example : exDollar.NoEmptyText ∧ exDollar.flags.advance = true ∧
    ∃ its, Visits exDollar ⟨.mk' 65535 0 5, true⟩ its ∧ its.length = 6 ∧
      its.map (·.eq (Iter.endIter 65535)) = [false, false, false, false, false, true] := by
  refine ⟨exDollar_noEmpty, rfl, ?_⟩
  have h : ((visit exDollar 3 6 ⟨.mk' 65535 0 5, true⟩).map fun its =>
      (its.length, its.map (·.eq (Iter.endIter 65535)))) =
      some (6, [false, false, false, false, false, true]) := by decide +kernel
  cases hc : visit exDollar 3 6 ⟨.mk' 65535 0 5, true⟩ with
  | none => rw [hc] at h; cases h
  | some its =>
    rw [hc] at h
    have h := Option.some.inj h
    exact ⟨its, visit_sound hc, congrArg Prod.fst h, congrArg Prod.snd h⟩

/-- C42.  Whatever the result object has been through, after `reset` it is
indistinguishable from a newly constructed one: every further sequence of calls is
possible for one exactly if it is for the other. -/
theorem C42_reset_is_fresh (L : Lexer) (r : Results) (start eoi : Nat) :
    r.reset L.npos start eoi = .mk' L.npos start eoi ∧
    ∀ rs, L.Calls (r.reset L.npos start eoi) rs ↔ L.Calls (.mk' L.npos start eoi) rs :=
  ⟨rfl, fun _ => Iff.rfl⟩

/-- C42.  After `clear` the object is that of an empty range at the end of the input; the
next call reports the end of input. -/
theorem C42_clear_is_fresh (L : Lexer) (r : Results) :
    r.clear L.npos = .mk' L.npos r.eoi r.eoi ∧
    ∀ o, L.Call (r.clear L.npos) o ↔
      o = .ok { Results.mk' L.npos r.eoi r.eoi with id := L.sm.eoi, userId := L.npos } :=
  ⟨rfl, fun o => C16_reports_end L rfl o⟩

/-- C42.  Lexing a second time after `reset`, whatever object it is called on, gives the
same tokens as the first time: as many calls give the same results. -/
theorem C42_lex_again (L : Lexer) {start eoi : Nat} (z : Results)
    {rs rs' : List Results} (h : L.Calls (.mk' L.npos start eoi) rs)
    (h' : L.Calls (z.reset L.npos start eoi) rs') (hl : rs'.length = rs.length) : rs' = rs :=
  calls_unique h' h hl

/-- A result object with a non-empty stack, in another state, in the middle of a line. -/
example : exDollar.Calls ((Results.mk 7 7 2 3 5 false 1 [(0, 2)]).reset 65535 0 5) [] ∧
    ∃ rs, exDollar.Calls ((Results.mk 7 7 2 3 5 false 1 [(0, 2)]).reset 65535 0 5) rs ∧ rs.length = 6 := by
  refine ⟨.nil _, ?_⟩
  have h : (Ex.calls exDollar 5 6 ((Results.mk 7 7 2 3 5 false 1 [(0, 2)]).reset 65535 0 5)).map List.length =
      some 6 := by decide +kernel
  cases hc : Ex.calls exDollar 5 6 ((Results.mk 7 7 2 3 5 false 1 [(0, 2)]).reset 65535 0 5) with
  | none => rw [hc] at h; cases h
  | some rs =>
    rw [hc] at h
    exact ⟨rs, Ex.calls_sound hc, Option.some.inj h⟩

end Lexertl.Props

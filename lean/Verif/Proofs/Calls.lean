import Verif.Proofs.Lex
import Verif.Proofs.Table
import Verif.Spec.Calls

namespace Lexertl
open Spec

theorem Spec.Lexer.Run.mono {L : Lexer} {eoi : Nat} {P Q : LuState → Prop} (h : ∀ s, P s → Q s) {p q : Nat}
    (r : L.Run eoi P p q) : L.Run eoi Q p q := by
  induction r with
  | nil => exact .nil _
  | snoc q k r s _ h1 h2 h3 h4 ih => exact .snoc _ q k r s ih h1 h2 h3 (h s h4)

/-- What one call yields (from the middle of it: token begun at `r.first`, at `p`). -/
structure Yields (L : Lexer) (r : Results) (p : Nat) (r' : Results) : Prop where
  eoi : r'.eoi = r.eoi
  lo : r.first ≤ r'.first
  mid : r'.first ≤ r'.second
  prog : p ≤ r'.second
  hi : r'.second ≤ r.eoi
  gap : L.Run r.eoi (fun s => L.IsSkip s ∨ L.IsCont s) r.first r'.first
  tok : (r'.id = L.sm.eoi ∧ r'.userId = L.npos ∧ r'.second = r.eoi ∧
      L.Run r.eoi L.IsCont r'.first r'.second) ∨
    (r'.id = L.npos ∧ r'.userId = L.npos ∧ r'.first < r.eoi ∧
      r'.second = (if L.flags.advance then r'.first + 1 else r'.first) ∧
      ∃ r0, r0.eoi = r.eoi ∧ L.TakesNone r0 r'.first) ∨
    (∃ q r0 s, r'.first ≤ q ∧ L.Run r.eoi L.IsCont r'.first q ∧ q < r.eoi ∧ r0.eoi = r.eoi ∧
      L.Takes r0 q r'.second s ∧ r'.id = s.id ∧ r'.userId = s.uid ∧ ¬ L.IsSkip s ∧ s.id ≠ L.sm.eoi)

theorem nextLoop_yields (L : Lexer) (fuel : Nat) : ∀ (r r' : Results) (p : Nat),
    r.second = p → r.first ≤ p → p ≤ r.eoi → L.Run r.eoi L.IsCont r.first p →
    nextLoop L.flags L.npos L.bytes L.sm L.inp fuel r p p = .ok r' → Yields L r p r' := by
  induction fuel with
  | zero => intro r r' p _ _ _ _ h; cases h
  | succ fuel ih =>
    intro r r' p hs hf he hrun h
    unfold nextLoop at h
    split at h
    · rename_i hp
      cases h
      refine ⟨rfl, Nat.le_refl _, by rw [hs]; exact hf, by rw [hs]; exact Nat.le_refl _, by rw [hs]; exact he, .nil _, .inl ⟨rfl, rfl, ?_, ?_⟩⟩
      · rw [hs]; exact hp
      · rw [hs]; exact hrun
    · rename_i hp
      have hlt : p < r.eoi := by omega
      obtain ⟨⟨s, t⟩, ha, hb⟩ := bind_ok h
      clear h
      obtain ⟨d, _, A⟩ := attempt_inv he ha
      dsimp only at hb
      split at hb
      · rename_i hend
        obtain ⟨⟨s', st⟩, hpop, h⟩ := bind_ok hb
        obtain ⟨q1, q2, q3, q4, q5⟩ := popStep_fields hpop
        dsimp only at h
        have ht : L.Takes r p t s := ⟨ha, hend⟩
        split at h
        · rename_i hsk
          rw [q1] at hsk
          have := ih _ _ _ rfl (Nat.le_refl _) A.hi (.nil _) h
          refine ⟨this.eoi, Nat.le_trans (Nat.le_trans hf A.lo) this.lo, this.mid, Nat.le_trans A.lo this.prog, this.hi, ?_, this.tok⟩
          have g := this.gap
          dsimp only at g
          clear this h hb ih
          have base : L.Run r.eoi (fun s => L.IsSkip s ∨ L.IsCont s) r.first t :=
            .snoc _ _ _ r s (hrun.mono (fun s h => Or.inr h)) hlt rfl ht (.inl hsk)
          clear ha A hpop ht hrun
          generalize r'.first = q at g
          induction g with
          | nil => exact base
          | snoc q' k r0 s0 _ h1 h2 h3 h4 ih' => exact .snoc _ _ _ r0 s0 ih' h1 h2 h3 h4
        · rename_i hsk
          split at h
          · rename_i hc
            have hcont : L.IsCont s := by
              unfold LuState.isIdEoi at hc
              rw [Bool.or_eq_true, beq_iff_eq, q1] at hc
              rcases hc with hc | hc
              · exact .inl hc
              · rw [Bool.and_eq_true, Bool.and_eq_true, q4] at hc
                exact .inr hc.1
            have hrun' : L.Run r.eoi L.IsCont r.first t := .snoc _ _ _ r s hrun hlt rfl ht hcont
            have := ih (Results.mk r.id r.userId r.first t r.eoi _ _ st) _ t rfl (Nat.le_trans hf A.lo) A.hi hrun' h
            exact ⟨this.eoi, this.lo, this.mid, Nat.le_trans A.lo this.prog, this.hi, this.gap, this.tok⟩
          · rename_i hc
            cases h
            refine ⟨rfl, Nat.le_refl _, Nat.le_trans hf A.lo, A.lo, A.hi, .nil _, .inr (.inr ?_)⟩
            refine ⟨p, r, s, hf, hrun, hlt, rfl, ht, q1, q2, fun hh => hsk (by rw [q1]; exact hh), fun hh => hc ?_⟩
            unfold LuState.isIdEoi
            rw [q1, hh]; simp
      · rename_i hend
        have hend : s.endState = false := by simpa using hend
        have ht := A.none hend
        subst ht
        obtain ⟨c, hc, h⟩ := bind_ok hb
        cases h
        refine ⟨rfl, hf, ?_, ?_, ?_, hrun.mono (fun s h => .inr h), .inr (.inl ⟨rfl, rfl, hlt, rfl, r, rfl, s, t, ha, hend⟩)⟩
        all_goals dsimp only
        all_goals split <;> omega

theorem call_yields {L : Lexer} {r r' : Results} (he : r.second ≤ r.eoi) (h : L.Call r (.ok r')) :
    Yields L { r with first := r.second } r.second r' := by
  obtain ⟨_, fuel, h⟩ := h
  exact nextLoop_yields L fuel { r with first := r.second } r' r.second rfl (Nat.le_refl _) he (.nil _) h

/-! ### Termination -/

theorem bind_error {α β : Type} {x : M α} {g : α → M β} {e : Fault} (h : (x >>= g) = .error e) :
    x = .error e ∨ ∃ a, x = .ok a ∧ g a = .error e := by
  cases x with
  | error e' => cases h; exact .inl rfl
  | ok a => exact .inr ⟨a, rfl, h⟩

theorem getCell_fuel {rows : List Row} {i c : Nat} : getCell rows i c ≠ .error .fuel := by
  unfold getCell
  split
  · simp
  · split <;> simp

theorem endStep_fuel {f : Flags} {d : Dfa} {s : LuState} {t c : Nat} :
    s.endStep f d t c ≠ .error .fuel := by
  intro h
  unfold LuState.endStep at h
  rcases bind_error h with h | ⟨_, _, h⟩
  · exact getCell_fuel h
  · split at h
    · rcases bind_error h with h | ⟨_, _, h⟩
      · exact getCell_fuel h
      · rcases bind_error h with h | ⟨_, _, h⟩
        · exact getCell_fuel h
        · rcases bind_error h with h | ⟨_, _, h⟩
          · exact getCell_fuel h
          · rcases bind_error h with h | ⟨_, _, h⟩
            · exact getCell_fuel h
            · cases h
    · cases h

theorem isEol_fuel {f : Flags} {d : Dfa} {s : LuState} {c : Option Nat} :
    s.isEol f d c ≠ .error .fuel := by
  intro h
  unfold LuState.isEol at h
  split at h
  · rcases bind_error h with h | ⟨_, _, h⟩
    · exact getCell_fuel h
    · dsimp only at h; split at h <;> cases h
  · cases h

theorem step_fuel {d : Dfa} {p c : Nat} : LuState.step d p c ≠ .error .fuel := by
  unfold LuState.step
  split
  · exact getCell_fuel
  · simp

theorem stepBytes_fuel {d : Dfa} (bs : List Nat) : ∀ {p st : Nat},
    LuState.stepBytes d p bs st ≠ .error .fuel := by
  induction bs with
  | nil => intro p st h; cases h
  | cons b bs ih =>
    intro p st h
    unfold LuState.stepBytes at h
    rcases bind_error h with h | ⟨_, _, h⟩
    · exact step_fuel h
    · split at h
      · cases h
      · exact ih h

theorem nextChar_fuel {bytes : Nat} {d : Dfa} {s : LuState} {c : Nat} :
    s.nextChar bytes d c ≠ .error .fuel := by
  intro h
  unfold LuState.nextChar at h
  split at h
  · rcases bind_error h with h | ⟨_, _, h⟩
    · exact step_fuel h
    · split at h <;> cases h
  · rcases bind_error h with h | ⟨_, _, h⟩
    · exact stepBytes_fuel _ h
    · cases h

theorem charAt_fuel {inp : List Nat} {eoi p : Nat} : charAt inp eoi p ≠ .error .fuel := by
  unfold charAt
  split
  · split <;> simp
  · simp

theorem popStep_fuel {f : Flags} {npos : Nat} {s : LuState} {st : List (Nat × Nat)} :
    s.popStep f npos st ≠ .error .fuel := by
  unfold LuState.popStep
  split
  · split
    · split <;> simp
    · split <;> simp
  · simp

/-- `end_state` leaves the row alone. -/
theorem endStep_ptr {f : Flags} {d : Dfa} {s s' : LuState} {t c t' : Nat}
    (h : s.endStep f d t c = .ok (s', t')) : s'.ptr = s.ptr := by
  unfold LuState.endStep at h
  obtain ⟨e, he, h⟩ := bind_ok h
  split at h
  · obtain ⟨id, hid, h⟩ := bind_ok h
    obtain ⟨uid, huid, h⟩ := bind_ok h
    obtain ⟨push, hpush, h⟩ := bind_ok h
    obtain ⟨next, hnext, h⟩ := bind_ok h
    cases h; rfl
  · cases h; rfl

/-- If end of line entries form no cycle the scanning loop ends. -/
theorem scan_fuel {f : Flags} {bytes : Nat} {d : Dfa} {inp : List Nat} {eoi : Nat} (rank : Nat → Nat)
    (hr : f.eol = true → ∀ (i e : Nat) (row : Row), d.rows[i]? = some row → row[ixEol]? = some e → e ≠ 0 →
      rank e < rank i ∧ rank i ≤ d.rows.length) :
    ∀ (fuel : Nat) (s : LuState) (curr endTok : Nat), curr ≤ eoi →
    (eoi - curr) * (d.rows.length + 1) + min (rank s.ptr) d.rows.length < fuel →
    s.scan f bytes d inp eoi fuel curr endTok ≠ .error .fuel := by
  intro fuel
  induction fuel with
  | zero => intro s curr endTok _ h; omega
  | succ fuel ih =>
    intro s curr endTok hle hf h
    unfold LuState.scan at h
    split at h
    · cases h
    · rename_i hne
      rcases bind_error h with h | ⟨c, hc, h⟩
      · exact charAt_fuel h
      rcases bind_error h with h | ⟨⟨s1, eol⟩, h1, h⟩
      · exact isEol_fuel h
      dsimp only at h
      split at h
      · rename_i heol
        rcases bind_error h with h | ⟨⟨s2, t2⟩, h2, h⟩
        · exact endStep_fuel h
        · have hp := endStep_ptr h2
          have : rank s1.ptr < rank s.ptr ∧ rank s.ptr ≤ d.rows.length := by
            unfold LuState.isEol at h1
            split at h1
            · rename_i hfe
              obtain ⟨e, he, h1⟩ := bind_ok h1
              dsimp only at h1
              split at h1
              · rename_i hcond
                cases h1
                obtain ⟨row, r1, r2⟩ := getCell_ok he
                exact hr hfe _ _ _ r1 r2 hcond.1
              · cases h1; cases heol
            · cases h1; cases heol
          refine ih s2 curr t2 hle ?_ h
          rw [hp]
          omega
      · rcases bind_error h with h | ⟨⟨s2, st⟩, h2, h⟩
        · exact nextChar_fuel h
        dsimp only at h
        split at h
        · rcases bind_error h with h | ⟨_, _, h⟩
          · exact isEol_fuel h
          · cases h
        · rcases bind_error h with h | ⟨⟨s3, t3⟩, h3, h⟩
          · exact endStep_fuel h
          · refine ih s3 (curr + 1) t3 (by omega) ?_ h
            have : (eoi - curr) * (d.rows.length + 1) =
                (eoi - (curr + 1)) * (d.rows.length + 1) + (d.rows.length + 1) := by
              rw [← Nat.succ_mul]; congr 1; omega
            omega

theorem dfaAt_mem {sm : Internals} {i : Nat} {d : Dfa} (h : sm.dfaAt i = .ok d) : d.rows ∈ sm.dfa := by
  unfold Internals.dfaAt at h
  split at h
  · rename_i h1 h2
    cases h
    exact List.mem_of_getElem? h2
  · cases h

theorem attempt_fuel {L : Lexer} (hE : L.EolEnds) {r : Results} {p : Nat} (hp : p ≤ r.eoi) :
    attempt L.flags L.npos L.bytes L.sm L.inp r p p ≠ .error .fuel := by
  intro h
  unfold attempt at h
  rcases bind_error h with h | ⟨d, hd, h⟩
  · unfold Internals.dfaAt at h
    split at h <;> cases h
  rcases bind_error h with h | ⟨s0, h0, h⟩
  · unfold LuState.init at h
    rcases bind_error h with h | ⟨_, _, h⟩
    · exact getCell_fuel h
    rcases bind_error h with h | ⟨_, _, h⟩
    · exact getCell_fuel h
    rcases bind_error h with h | ⟨_, _, h⟩
    · exact getCell_fuel h
    rcases bind_error h with h | ⟨_, _, h⟩
    · exact getCell_fuel h
    · cases h
  rcases bind_error h with h | ⟨s1, h1, h⟩
  · unfold LuState.bolStartState at h
    split at h
    · rcases bind_error h with h | ⟨_, _, h⟩
      · exact getCell_fuel h
      · split at h <;> cases h
    · cases h
  rcases bind_error h with h | ⟨⟨s2, curr, t2⟩, h2, h⟩
  · have hm : ∀ (x : Nat), (r.eoi - p) * (d.rows.length + 1) + min x d.rows.length <
        scanFuel d r.eoi p := by
      intro x
      unfold scanFuel
      rw [Nat.succ_mul]
      omega
    by_cases hfe : L.flags.eol = true
    · obtain ⟨rank, hr⟩ := hE hfe d.rows (dfaAt_mem hd)
      exact scan_fuel rank (fun _ => hr) _ s1 p p hp (hm _) h
    · exact scan_fuel (fun _ => 0) (fun h => absurd h hfe) _ s1 p p hp (hm _) h
  · dsimp only at h
    unfold LuState.checkEol at h
    split at h
    · rcases bind_error h with h | ⟨_, _, h⟩
      · exact getCell_fuel h
      · dsimp only at h
        split at h
        · exact endStep_fuel h
        · cases h
    · cases h

/-- Without empty texts every jump moves forward. -/
theorem nextLoop_fuel {L : Lexer} (hE : L.EolEnds) (hN : L.NoEmptyText) (fuel : Nat) :
    ∀ (r : Results) (p : Nat), p ≤ r.eoi → r.eoi - p < fuel →
    nextLoop L.flags L.npos L.bytes L.sm L.inp fuel r p p ≠ .error .fuel := by
  induction fuel with
  | zero => intro r p _ h; omega
  | succ fuel ih =>
    intro r p hp hf h
    unfold nextLoop at h
    split at h
    · cases h
    · rename_i hne
      rcases bind_error h with h | ⟨⟨s, t⟩, ha, h⟩
      · exact attempt_fuel hE hp h
      obtain ⟨d, _, A⟩ := attempt_inv hp ha
      have a1 := A.lo
      have a2 := A.hi
      dsimp only at h
      split at h
      · rename_i hend
        have hlt : p < t := by
          have := hN r p s (by omega)
          have h' : t ≠ p := by
            rintro rfl
            exact this ⟨ha, hend⟩
          omega
        rcases bind_error h with h | ⟨⟨s', st⟩, hpop, h⟩
        · exact popStep_fuel h
        dsimp only at h
        split at h
        · exact ih _ _ (by exact a2) (by dsimp only; omega) h
        · split at h
          · exact ih _ t (by exact a2) (by dsimp only; omega) h
          · cases h
      · rcases bind_error h with h | ⟨_, _, h⟩
        · exact charAt_fuel h
        · cases h

/-- A call that consumes nothing is at the end of input or has `advance` off. -/
theorem nextLoop_prog {L : Lexer} (hN : L.NoEmptyText) (ha : L.flags.advance = true) (fuel : Nat) :
    ∀ (r r' : Results) (p : Nat), r.second = p → p < r.eoi →
    nextLoop L.flags L.npos L.bytes L.sm L.inp fuel r p p = .ok r' → p < r'.second := by
  induction fuel with
  | zero => intro r r' p _ _ h; cases h
  | succ fuel ih =>
    intro r r' p hs hp h
    unfold nextLoop at h
    rw [if_neg (by omega)] at h
    obtain ⟨⟨s, t⟩, hat, hb⟩ := bind_ok h
    clear h
    obtain ⟨d, _, A⟩ := attempt_inv (Nat.le_of_lt hp) hat
    have a1 := A.lo
    have a2 := A.hi
    dsimp only at hb
    split at hb
    · rename_i hend
      have hlt : p < t := by
        have h' : t ≠ p := by
          rintro rfl
          exact hN r t s hp ⟨hat, hend⟩
        omega
      have key : ∀ (r1 r2 : Results), nextLoop L.flags L.npos L.bytes L.sm L.inp fuel r1 t t = .ok r2 →
          r1.second = t → r1.eoi = r.eoi → p < r2.second := by
        intro r1 r2 h4 h1 h2
        by_cases hte : t = r.eoi
        · cases fuel with
          | zero => cases h4
          | succ n =>
            unfold nextLoop at h4
            rw [if_pos (by rw [h2]; exact hte)] at h4
            cases h4
            show p < r1.second
            omega
        · have := ih r1 r2 t h1 (by omega) h4
          omega
      obtain ⟨⟨s', st⟩, hpop, h⟩ := bind_ok hb
      dsimp only at h
      split at h
      · exact key _ _ h rfl rfl
      · split at h
        · exact key _ _ h rfl rfl
        · cases h
          exact hlt
    · obtain ⟨c, hc, h⟩ := bind_ok hb
      cases h
      dsimp only
      omega

/-! ### Start rows without empty matches -/

theorem endStep_pos {f : Flags} {d : Dfa} {p : Nat} {s s' : LuState} {curr t t' : Nat} (hc : p < curr)
    (hs : s.endState = true → p < t) (h : s.endStep f d t curr = .ok (s', t')) :
    s'.endState = true → p < t' := by
  unfold LuState.endStep at h
  obtain ⟨e, he, h⟩ := bind_ok h
  split at h
  · obtain ⟨id, hid, h⟩ := bind_ok h
    obtain ⟨uid, huid, h⟩ := bind_ok h
    obtain ⟨push, hpush, h⟩ := bind_ok h
    obtain ⟨next, hnext, h⟩ := bind_ok h
    cases h
    exact fun _ => hc
  · cases h; exact hs

theorem isEol_end {f : Flags} {d : Dfa} {s s' : LuState} {c : Option Nat} {x : Bool}
    (h : s.isEol f d c = .ok (s', x)) : s'.endState = s.endState ∧
      (x = true → ∃ e, getCell d.rows s.ptr ixEol = .ok e ∧ e ≠ 0 ∧ f.eol = true) := by
  unfold LuState.isEol at h
  split at h
  · rename_i hf
    obtain ⟨e, he, h⟩ := bind_ok h
    dsimp only at h
    split at h <;> rename_i hc <;> cases h
    · exact ⟨rfl, fun _ => ⟨e, he, hc.1, hf⟩⟩
    · exact ⟨rfl, fun h => by cases h⟩
  · cases h
    exact ⟨rfl, fun h => by cases h⟩

theorem scan_pos {f : Flags} {bytes : Nat} {d : Dfa} {inp : List Nat} {eoi p : Nat} :
    ∀ (fuel : Nat) {s s' : LuState} {curr endTok curr' endTok' : Nat}, p ≤ curr →
    (curr = p → f.eol = true → getCell d.rows s.ptr ixEol = .ok 0) →
    (s.endState = true → p < endTok) →
    s.scan f bytes d inp eoi fuel curr endTok = .ok (s', curr', endTok') →
    s'.endState = true → p < endTok' := by
  intro fuel
  induction fuel with
  | zero => intro s s' _ _ _ _ _ _ _ h; cases h
  | succ fuel ih =>
    intro s s' curr endTok curr' endTok' hle hcell hend h
    unfold LuState.scan at h
    split at h
    · cases h; exact hend
    · obtain ⟨c, hc, h⟩ := bind_ok h
      obtain ⟨⟨s1, eol⟩, h1, h⟩ := bind_ok h
      obtain ⟨g1, g2⟩ := isEol_end h1
      dsimp only at h
      split at h
      · rename_i heol
        obtain ⟨e, g3, g4, g5⟩ := g2 heol
        have hlt : p < curr := by
          have : curr ≠ p := fun hh => by
            rw [hcell hh g5] at g3
            cases g3
            exact g4 rfl
          omega
        obtain ⟨⟨s2, t2⟩, h2, h⟩ := bind_ok h
        exact ih hle (fun hh => by omega) (endStep_pos hlt (by rw [g1]; exact hend) h2) h
      · obtain ⟨⟨s2, st⟩, h2, h⟩ := bind_ok h
        obtain ⟨q, rfl⟩ := nextChar_ptr h2
        dsimp only at h
        generalize hs6 : (if f.bol = true then
          ({ ptr := q, endState := s1.endState, id := s1.id, uid := s1.uid, bol := c == 10, endBol := s1.endBol, eolState := s1.eolState, startState := s1.startState, pop := s1.pop, pushDfa := s1.pushDfa } : LuState)
          else { ptr := q, endState := s1.endState, id := s1.id, uid := s1.uid, bol := s1.bol, endBol := s1.endBol, eolState := s1.eolState, startState := s1.startState, pop := s1.pop, pushDfa := s1.pushDfa }) = s6 at h
        have e6 : s6.endState = s.endState := by subst hs6; rw [← g1]; split <;> rfl
        split at h
        · obtain ⟨⟨s3, _⟩, h3, h⟩ := bind_ok h
          cases h
          rw [(isEol_end h3).1, e6]
          exact hend
        · obtain ⟨⟨s3, t3⟩, h3, h⟩ := bind_ok h
          exact ih (by omega) (fun hh => by omega) (endStep_pos (by omega) (by rw [e6]; exact hend) h3) h

end Lexertl

namespace Lexertl
open Spec

/-- A call has at most one outcome. -/
theorem call_unique {L : Lexer} {r : Results} {o o' : M Results} (h : L.Call r o) (h' : L.Call r o') : o = o' := by
  obtain ⟨g, n, e⟩ := h
  obtain ⟨g', n', e'⟩ := h'
  unfold lookupFuel at e e'
  have a := nextLoop_mono L.flags L.npos L.bytes L.sm L.inp n (max n n') { r with first := r.second } r.second r.second
    (by omega) (by rw [e]; exact g)
  have b := nextLoop_mono L.flags L.npos L.bytes L.sm L.inp n' (max n n') { r with first := r.second } r.second r.second
    (by omega) (by rw [e']; exact g')
  rw [← e, ← e', ← a, ← b]

theorem calls_unique {L : Lexer} {r : Results} {rs rs' : List Results} (h : L.Calls r rs) (h' : L.Calls r rs')
    (hl : rs.length = rs'.length) : rs = rs' := by
  induction h generalizing rs' with
  | nil r => cases h' <;> simp at hl ⊢
  | cons r a rs h1 _ ih =>
    cases h' with
    | nil => simp at hl
    | cons _ b rs' g1 g2 =>
      have := call_unique h1 g1
      cases this
      rw [ih g2 (by simpa using hl)]

end Lexertl

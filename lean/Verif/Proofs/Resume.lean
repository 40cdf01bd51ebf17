import Verif.Spec.Resume

/-
`lookup` on a text and on the same text further on.
-/
namespace Lexertl.Resume
open Spec LuState

variable {f : Flags} {npos bytes : Nat} {sm : Internals}

theorem charAt_moved (pre inp : List Nat) (eoi p : Nat) : charAt (pre ++ inp) (eoi + pre.length) (p + pre.length) = charAt inp eoi p := by
  unfold charAt
  rw [List.getElem?_append_right (by omega), Nat.add_sub_cancel]
  by_cases h : p < eoi
  · rw [if_pos h, if_pos (by omega)]
  · rw [if_neg h, if_neg (by omega)]

theorem map_bind' {α β γ : Type} (x : M α) (k : α → M β) (g : β → γ) : Except.map g (x >>= k) = x >>= fun a => Except.map g (k a) := by
  cases x <;> rfl

theorem bind_map {α β γ : Type} (x : M α) (g : α → β) (k : β → M γ) : (Except.map g x >>= k) = x >>= fun a => k (g a) := by
  cases x <;> rfl

theorem map_ok {α β : Type} (g : α → β) (a : α) : Except.map g (.ok a : M α) = .ok (g a) := rfl

theorem map_error {α β : Type} (g : α → β) (e : Fault) : Except.map g (.error e : M α) = .error e := rfl

theorem endStep_moved (n : Nat) (d : Dfa) (s : LuState) (tok curr : Nat) :
    s.endStep f d (tok + n) (curr + n) = (s.endStep f d tok curr).map fun x => (x.1, x.2 + n) := by
  unfold endStep
  simp only [map_bind']
  congr 1
  funext e
  by_cases he : e ≠ 0
  · simp only [if_pos he, map_bind', map_ok]
  · simp only [if_neg he, map_ok]

theorem scan_moved (d : Dfa) (pre inp : List Nat) (eoi : Nat) : ∀ (n : Nat) (s : LuState) (curr tok : Nat),
    s.scan f bytes d (pre ++ inp) (eoi + pre.length) n (curr + pre.length) (tok + pre.length) =
      (s.scan f bytes d inp eoi n curr tok).map fun x => (x.1, x.2.1 + pre.length, x.2.2 + pre.length) := by
  intro n
  induction n with
  | zero => intros; rfl
  | succ n ih =>
    intro s curr tok
    unfold scan
    by_cases h : curr = eoi
    · rw [if_pos h, if_pos (by omega)]
      rfl
    · rw [if_neg h, if_neg (by omega), charAt_moved, map_bind']
      congr 1
      funext c
      rw [map_bind']
      congr 1
      funext x
      obtain ⟨s, eol⟩ := x
      cases eol with
      | true =>
        simp only [if_true, endStep_moved, bind_map, map_bind', ih]
      | false =>
        simp only [Bool.false_eq_true, if_false, map_bind']
        congr 1
        funext y
        obtain ⟨s, state⟩ := y
        simp only []
        by_cases hs : state = 0
        · simp only [if_pos hs, map_bind', map_ok]
        · simp only [if_neg hs, map_bind', Nat.add_right_comm curr pre.length 1, endStep_moved, bind_map, ih]

theorem checkEol_moved (n : Nat) (d : Dfa) (s : LuState) (tok curr eoi : Nat) :
    s.checkEol f npos d (tok + n) (curr + n) (eoi + n) = (s.checkEol f npos d tok curr eoi).map fun x => (x.1, x.2 + n) := by
  unfold checkEol
  simp only [Nat.add_right_cancel_iff]
  split
  · simp only [map_bind']
    congr 1
    funext e
    split
    · exact endStep_moved n d _ tok curr
    · rfl
  · rfl

theorem attempt_moved (pre inp : List Nat) (r r' : Results) (h1 : r'.state = r.state) (h2 : r'.bol = r.bol) (h3 : r'.eoi = r.eoi + pre.length) (curr tok : Nat) :
    attempt f npos bytes sm (pre ++ inp) r' (curr + pre.length) (tok + pre.length) =
      (attempt f npos bytes sm inp r curr tok).map fun x => (x.1, x.2 + pre.length) := by
  unfold attempt
  simp only [h1, h2, h3, map_bind', scanFuel, Nat.add_sub_add_right, scan_moved, bind_map, checkEol_moved]

theorem nextLoop_moved (pre inp : List Nat) : ∀ (n : Nat) (r : Results) (curr tok : Nat),
    nextLoop f npos bytes sm (pre ++ inp) n (moved pre.length r) (curr + pre.length) (tok + pre.length) =
      (nextLoop f npos bytes sm inp n r curr tok).map (moved pre.length) := by
  intro n
  induction n with
  | zero => intros; rfl
  | succ n ih =>
    intro r curr tok
    unfold nextLoop
    by_cases h : curr = r.eoi
    · rw [if_pos h, if_pos (by rw [h]; rfl)]
      rfl
    · rw [if_neg h, if_neg (by simp only [moved]; omega)]
      rw [attempt_moved pre inp r (moved pre.length r) rfl rfl rfl, bind_map, map_bind']
      congr 1
      funext x
      obtain ⟨s, tok⟩ := x
      simp only []
      cases hs : s.endState with
      | true =>
        simp only [if_true, map_bind', moved]
        congr 1
        funext y
        obtain ⟨s, stack⟩ := y
        simp only []
        by_cases h1 : s.id = npos - 1
        · simp only [if_pos h1]
          exact ih { r with stack := stack, state := if f.multiState then s.startState else r.state, bol := if f.bol then s.endBol else r.bol, second := tok, first := tok } tok tok
        · simp only [if_neg h1]
          by_cases h2 : s.isIdEoi f sm.eoi stack
          · simp only [if_pos h2]
            exact ih { r with stack := stack, state := if f.multiState then s.startState else r.state, bol := if f.bol then s.endBol else r.bol, second := tok } tok tok
          · simp only [if_neg h2]
            rfl
      | false =>
        simp only [Bool.false_eq_true, if_false, map_bind', moved, charAt_moved]
        congr 1
        funext c
        cases f.advance
        · rfl
        · simp only [if_true, map_ok, moved, Nat.add_right_comm tok pre.length 1]

theorem lookupFuel_moved (pre inp : List Nat) (n : Nat) (r : Results) :
    lookupFuel f npos bytes sm (pre ++ inp) n (moved pre.length r) = (lookupFuel f npos bytes sm inp n r).map (moved pre.length) :=
  nextLoop_moved pre inp n { r with first := r.second } r.second r.second

theorem moved_injective (n : Nat) {r r' : Results} (h : moved n r = moved n r') : r = r' := by
  obtain ⟨a, b, c, d, e, g, i, j⟩ := r
  obtain ⟨a', b', c', d', e', g', i', j'⟩ := r'
  simp only [moved, Results.mk.injEq, Nat.add_right_cancel_iff] at h ⊢
  exact h

theorem returns_moved (pre inp : List Nat) (r : Results) (o : M Results) :
    Returns f npos bytes sm (pre ++ inp) (moved pre.length r) (o.map (moved pre.length)) ↔ Returns f npos bytes sm inp r o := by
  unfold Returns
  simp only [lookupFuel_moved]
  refine and_congr ?_ (exists_congr fun n => ?_)
  · cases o with
    | ok a => simp [Except.map]
    | error e => rfl
  · constructor
    · cases h : lookupFuel f npos bytes sm inp n r with
      | ok a =>
        cases o with
        | ok b => exact fun h' => congrArg _ (moved_injective _ (Except.ok.inj h'))
        | error e => exact fun h' => by cases h'
      | error e =>
        cases o with
        | ok b => exact fun h' => by cases h'
        | error e' => exact fun h' => congrArg _ (Except.error.inj h')
    · rintro rfl
      rfl

theorem returns_moved_ok {pre inp : List Nat} {r r' : Results} (h : Returns f npos bytes sm (pre ++ inp) (moved pre.length r) (.ok r')) :
    ∃ q, r' = moved pre.length q ∧ Returns f npos bytes sm inp r (.ok q) := by
  obtain ⟨-, n, h⟩ := h
  rw [lookupFuel_moved] at h
  cases h' : lookupFuel f npos bytes sm inp n r with
  | ok q =>
    rw [h'] at h
    exact ⟨q, (Except.ok.inj h).symm, by simp, n, h'⟩
  | error e => rw [h'] at h; cases h

/-- The id and the user id of the last token play no role. -/
theorem nextLoop_ids (inp : List Nat) (a b : Nat) : ∀ (n : Nat) (r : Results) (curr tok : Nat),
    nextLoop f npos bytes sm inp n { r with id := a, userId := b } curr tok = nextLoop f npos bytes sm inp n r curr tok := by
  intro n
  induction n with
  | zero => intros; rfl
  | succ n ih =>
    intro r curr tok
    unfold nextLoop
    have ha : attempt f npos bytes sm inp { r with id := a, userId := b } curr tok = attempt f npos bytes sm inp r curr tok := rfl
    rw [ha]
    by_cases h : curr = r.eoi
    · rw [if_pos h, if_pos h]
    · rw [if_neg h, if_neg h]
      congr 1
      funext x
      obtain ⟨s, tok⟩ := x
      simp only []
      cases hs : s.endState with
      | true =>
        simp only [if_true]
        congr 1
        funext y
        obtain ⟨s, stack⟩ := y
        simp only []
        by_cases h1 : s.id = npos - 1
        · simp only [if_pos h1]
          exact ih { r with stack := stack, state := if f.multiState then s.startState else r.state, bol := if f.bol then s.endBol else r.bol, second := tok, first := tok } tok tok
        · simp only [if_neg h1]
          by_cases h2 : s.isIdEoi f sm.eoi stack
          · simp only [if_pos h2]
            exact ih { r with stack := stack, state := if f.multiState then s.startState else r.state, bol := if f.bol then s.endBol else r.bol, second := tok } tok tok
          · simp only [if_neg h2]
      | false => simp only [Bool.false_eq_true, if_false]

theorem lookupFuel_rest {inp : List Nat} {r : Results} (h1 : r.second ≤ r.eoi) (n : Nat) :
    lookupFuel f npos bytes sm inp n r = lookupFuel f npos bytes sm inp n (moved r.second (afterToken npos r)) := by
  unfold lookupFuel
  have h3 : ({ moved r.second (afterToken npos r) with first := (moved r.second (afterToken npos r)).second } : Results) =
      { { r with first := r.second } with id := 0, userId := npos } := by
    simp only [moved, afterToken, Nat.zero_add, Nat.sub_add_cancel h1]
  rw [h3, nextLoop_ids]
  simp only [moved, afterToken, Nat.zero_add]

theorem returns_rest {inp : List Nat} {r : Results} (h1 : r.second ≤ r.eoi) (o : M Results) :
    Returns f npos bytes sm inp r o ↔ Returns f npos bytes sm inp (moved r.second (afterToken npos r)) o := by
  unfold Returns
  simp only [lookupFuel_rest h1]

theorem calls_moved {L : Lexer} (pre : List Nat) {r : Results} {rs : List Results} :
    (L.on (pre ++ L.inp)).Calls (moved pre.length r) rs ↔ ∃ rs', L.Calls r rs' ∧ rs = rs'.map (moved pre.length) := by
  constructor
  · intro h
    generalize hq : moved pre.length r = q at h
    induction h generalizing r with
    | nil q => exact ⟨[], .nil _, rfl⟩
    | cons q q' rs hc _ ih =>
      subst hq
      obtain ⟨r', rfl, h3⟩ := returns_moved_ok (f := L.flags) (npos := L.npos) (bytes := L.bytes) (sm := L.sm) hc
      obtain ⟨rs', h4, rfl⟩ := ih rfl
      exact ⟨r' :: rs', .cons _ _ _ h3 h4, rfl⟩
  · rintro ⟨rs', h, rfl⟩
    induction h with
    | nil r => exact .nil _
    | cons r r' rs hc _ ih => exact .cons _ _ _ ((returns_moved pre L.inp r (.ok r')).2 hc) ih

/-! ### Characters after the end of the input -/

theorem charAt_beyond {inp : List Nat} (suf : List Nat) {eoi : Nat} (h : eoi ≤ inp.length) (p : Nat) : charAt (inp ++ suf) eoi p = charAt inp eoi p := by
  unfold charAt
  by_cases hp : p < eoi
  · rw [if_pos hp, if_pos hp, List.getElem?_append_left (by omega)]
  · rw [if_neg hp, if_neg hp]

theorem scan_beyond (d : Dfa) {inp : List Nat} (suf : List Nat) {eoi : Nat} (he : eoi ≤ inp.length) : ∀ (n : Nat) (s : LuState) (curr tok : Nat),
    s.scan f bytes d (inp ++ suf) eoi n curr tok = s.scan f bytes d inp eoi n curr tok := by
  intro n
  induction n with
  | zero => intros; rfl
  | succ n ih =>
    intro s curr tok
    unfold scan
    simp only [charAt_beyond suf he, ih]

theorem nextLoop_beyond {inp : List Nat} (suf : List Nat) : ∀ (n : Nat) (r : Results) (curr tok : Nat), r.eoi ≤ inp.length →
    nextLoop f npos bytes sm (inp ++ suf) n r curr tok = nextLoop f npos bytes sm inp n r curr tok := by
  intro n
  induction n with
  | zero => intros; rfl
  | succ n ih =>
    intro r curr tok he
    unfold nextLoop
    have ha : attempt f npos bytes sm (inp ++ suf) r curr tok = attempt f npos bytes sm inp r curr tok := by
      unfold attempt
      simp only [scan_beyond _ suf he]
    rw [ha]
    by_cases h : curr = r.eoi
    · rw [if_pos h, if_pos h]
    · rw [if_neg h, if_neg h]
      congr 1
      funext x
      obtain ⟨s, tok⟩ := x
      simp only [charAt_beyond suf he]
      cases hs : s.endState with
      | true =>
        simp only [if_true]
        congr 1
        funext y
        obtain ⟨s, stack⟩ := y
        simp only []
        by_cases h1 : s.id = npos - 1
        · simp only [if_pos h1]
          exact ih _ _ _ he
        · simp only [if_neg h1]
          by_cases h2 : s.isIdEoi f sm.eoi stack
          · simp only [if_pos h2]
            exact ih _ _ _ he
          · simp only [if_neg h2]
      | false => simp only [Bool.false_eq_true, if_false]

end Lexertl.Resume

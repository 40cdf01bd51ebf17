import Verif.Proofs.ScanFuel

/-
Two tables whose rows correspond under a renumbering give the same results.
-/
namespace Lexertl
open Spec

/-- The row numbers of a lookup state renamed. -/
def LuState.ren (m : Nat → Nat) (s : LuState) : LuState := { s with ptr := m s.ptr, eolState := m s.eolState }

/-- Table `d'` is table `d` with the rows renamed by `m` (several rows may become one). -/
structure Sim (npos : Nat) (d d' : Dfa) (m : Nat → Nat) : Prop where
  lk : d'.lookup = d.lookup
  size : 1 < d.rows.length
  m0 : m 0 = 0
  m1 : m 1 = 1
  pos : ∀ p, 0 < p → p < d.rows.length → 0 < m p
  np : ∀ p < d.rows.length, p ≠ npos ∧ m p ≠ npos
  cell : ∀ p c, 0 < p → p < d.rows.length → c < 5 → getCell d'.rows (m p) c = getCell d.rows p c
  eol : ∀ p, 0 < p → p < d.rows.length → ∃ e < d.rows.length, getCell d.rows p ixEol = .ok e ∧
    getCell d'.rows (m p) ixEol = .ok (m e)
  trans : ∀ p col, 0 < p → p < d.rows.length → col ∈ d.lookup → ∃ e < d.rows.length,
    getCell d.rows p col = .ok e ∧ getCell d'.rows (m p) col = .ok (m e)
  bol : ∃ b < d.rows.length, getCell d.rows 0 0 = .ok b ∧ getCell d'.rows 0 0 = .ok (m b)

namespace Sim
variable {npos : Nat} {d d' : Dfa} {m : Nat → Nat} {f : Flags} {bytes : Nat} {inp : List Nat} {eoi : Nat}

/-- The row number of a state is that of a row, not row 0. -/
def In (d : Dfa) (s : LuState) : Prop := 0 < s.ptr ∧ s.ptr < d.rows.length ∧ s.eolState < d.rows.length

theorem endStep (S : Sim npos d d' m) {s : LuState} (hs : In d s) (tok curr : Nat) :
    (s.ren m).endStep f d' tok curr = (s.endStep f d tok curr).map fun x => (x.1.ren m, x.2) := by
  have c := fun col h => S.cell s.ptr col hs.1 hs.2.1 h
  unfold LuState.endStep LuState.ren
  simp only [ixEnd, ixId, ixUserId, ixPushDfa, ixNextDfa]
  rw [c 0 (by decide), c 1 (by decide), c 2 (by decide), c 3 (by decide), c 4 (by decide)]
  cases getCell d.rows s.ptr 0 with
  | error e => rfl
  | ok v =>
    simp only [bind, Except.bind]
    by_cases hv : v = 0
    · simp [hv, Except.map]
    · simp only [hv, ne_eq, not_false_eq_true, if_true]
      cases getCell d.rows s.ptr 1 with
      | error e => rfl
      | ok a => cases getCell d.rows s.ptr 2 with
        | error e => rfl
        | ok b => cases getCell d.rows s.ptr 3 with
          | error e => rfl
          | ok c => cases getCell d.rows s.ptr 4 with
            | error e => rfl
            | ok d => rfl

theorem endStep_in {s s' : LuState} (hs : In d s) {tok curr tok' : Nat}
    (h : s.endStep f d tok curr = .ok (s', tok')) : In d s' := by
  unfold LuState.endStep at h
  obtain ⟨e, _, h⟩ := bind_ok h
  split at h
  · obtain ⟨_, _, h⟩ := bind_ok h
    obtain ⟨_, _, h⟩ := bind_ok h
    obtain ⟨_, _, h⟩ := bind_ok h
    obtain ⟨_, _, h⟩ := bind_ok h
    cases h; exact hs
  · cases h; exact hs

theorem m_eq_zero (S : Sim npos d d' m) {p : Nat} (hp : p < d.rows.length) : m p = 0 ↔ p = 0 := by
  constructor
  · intro h
    by_cases h0 : p = 0
    · exact h0
    · have := S.pos p (by omega) hp
      omega
  · rintro rfl
    exact S.m0

theorem isEol (S : Sim npos d d' m) {s : LuState} (hs : In d s) (c : Option Nat) :
    (s.ren m).isEol f d' c = (s.isEol f d c).map (fun x => (x.1.ren m, x.2)) ∧
    ∀ s' b, s.isEol f d c = .ok (s', b) → In d s' := by
  obtain ⟨e, he, h1, h2⟩ := S.eol s.ptr hs.1 hs.2.1
  unfold LuState.isEol
  by_cases hf : f.eol = true
  · rw [if_pos hf, if_pos hf, h1]
    simp only [LuState.ren] at h2 ⊢
    rw [h2]
    simp only [bind, Except.bind, ne_eq, S.m_eq_zero he]
    by_cases hc : ¬ e = 0 ∧ (c = some 13 ∨ c = some 10)
    · rw [if_pos hc, if_pos hc]
      refine ⟨rfl, ?_⟩
      intro s' b h
      cases h
      exact ⟨Nat.pos_of_ne_zero hc.1, he, he⟩
    · rw [if_neg hc, if_neg hc]
      refine ⟨rfl, ?_⟩
      intro s' b h
      cases h
      exact ⟨hs.1, hs.2.1, he⟩
  · rw [if_neg hf, if_neg hf]
    refine ⟨rfl, ?_⟩
    intro s' b h
    cases h
    exact hs

theorem step (S : Sim npos d d' m) {p : Nat} (h0 : 0 < p) (hp : p < d.rows.length) (ch : Nat) :
    LuState.step d' (m p) ch = (LuState.step d p ch).map m ∧
    ∀ e, LuState.step d p ch = .ok e → e < d.rows.length := by
  unfold LuState.step
  rw [S.lk]
  cases hl : d.lookup[ch]? with
  | none => exact ⟨rfl, fun e h => by cases h⟩
  | some col =>
    obtain ⟨e, he, h1, h2⟩ := S.trans p col h0 hp (List.mem_of_getElem? hl)
    dsimp only
    rw [h1, h2]
    refine ⟨rfl, ?_⟩
    intro e' h
    cases h
    exact he

theorem stepBytes (S : Sim npos d d' m) (bs : List Nat) : ∀ {p st : Nat}, 0 < p → p < d.rows.length →
    st < d.rows.length →
    LuState.stepBytes d' (m p) bs (m st) = (LuState.stepBytes d p bs st).map (fun x => (m x.1, m x.2)) ∧
    ∀ x, LuState.stepBytes d p bs st = .ok x → 0 < x.1 ∧ x.1 < d.rows.length ∧ x.2 < d.rows.length := by
  induction bs with
  | nil =>
    intro p st h1 h2 h3
    refine ⟨rfl, ?_⟩
    intro x h
    cases h
    exact ⟨h1, h2, h3⟩
  | cons b bs ih =>
    intro p st h1 h2 h3
    obtain ⟨s1, s2⟩ := S.step h1 h2 b
    unfold LuState.stepBytes
    rw [s1]
    cases hst : LuState.step d p b with
    | error e => exact ⟨rfl, fun x h => by cases h⟩
    | ok e =>
      have he := s2 e hst
      simp only [bind, Except.bind, Except.map, S.m_eq_zero he]
      by_cases h0 : e = 0
      · subst h0
        simp only [if_true, S.m0]
        refine ⟨by first | rfl | trivial, ?_⟩
        intro x h
        cases h
        exact ⟨h1, h2, he⟩
      · simp only [h0, if_false]
        exact ih (Nat.pos_of_ne_zero h0) he he

theorem nextChar (S : Sim npos d d' m) {s : LuState} (hs : In d s) (c : Nat) :
    (s.ren m).nextChar bytes d' c = (s.nextChar bytes d c).map (fun x => (x.1.ren m, m x.2)) ∧
    ∀ s' st, s.nextChar bytes d c = .ok (s', st) → In d s' ∧ st < d.rows.length := by
  unfold LuState.nextChar
  by_cases hb : bytes = 1
  · rw [if_pos hb, if_pos hb]
    obtain ⟨s1, s2⟩ := S.step hs.1 hs.2.1 c
    show (LuState.step d' (m s.ptr) c >>= _) = _ ∧ _
    rw [s1]
    cases hst : LuState.step d s.ptr c with
    | error e => exact ⟨rfl, fun s' st h => by cases h⟩
    | ok e =>
      have he := s2 e hst
      simp only [bind, Except.bind, Except.map, ne_eq, S.m_eq_zero he]
      by_cases h0 : e = 0
      · simp only [h0, not_true_eq_false, if_false, S.m0]
        refine ⟨by first | rfl | trivial, ?_⟩
        intro s' st h
        cases h
        exact ⟨hs, by have := S.size; omega⟩
      · simp only [h0, not_false_eq_true, if_true]
        refine ⟨rfl, ?_⟩
        intro s' st h
        cases h
        exact ⟨⟨Nat.pos_of_ne_zero h0, he, hs.2.2⟩, he⟩
  · rw [if_neg hb, if_neg hb]
    dsimp only
    generalize ((List.range bytes).map fun i => c / 256 ^ (bytes - 1 - i) % 256) = bs
    obtain ⟨s1, s2⟩ := S.stepBytes bs (p := s.ptr) (st := 0) hs.1 hs.2.1 (by have := S.size; omega)
    rw [S.m0] at s1
    have e : (s.ren m).ptr = m s.ptr := rfl
    rw [e, s1]
    cases hst : LuState.stepBytes d s.ptr bs 0 with
    | error e => exact ⟨rfl, fun s' st h => by cases h⟩
    | ok x =>
      refine ⟨rfl, ?_⟩
      intro s' st h
      cases h
      obtain ⟨a, b, c⟩ := s2 x hst
      exact ⟨⟨a, b, hs.2.2⟩, c⟩

theorem scan (S : Sim npos d d' m) (F : Nat) : ∀ {s : LuState} (curr tok : Nat), In d s →
    (s.ren m).scan f bytes d' inp eoi F curr tok =
      (s.scan f bytes d inp eoi F curr tok).map (fun x => (x.1.ren m, x.2)) ∧
    ∀ x, s.scan f bytes d inp eoi F curr tok = .ok x → In d x.1 := by
  induction F with
  | zero => intro s curr tok hs; exact ⟨rfl, fun x h => by cases h⟩
  | succ F ih =>
    intro s curr tok hs
    rw [LuState.scan, LuState.scan]
    by_cases hc : curr = eoi
    · rw [if_pos hc, if_pos hc]
      exact ⟨rfl, fun x h => by cases h; exact hs⟩
    rw [if_neg hc, if_neg hc]
    cases hch : charAt inp eoi curr with
    | error e => exact ⟨rfl, fun x h => by cases h⟩
    | ok c =>
      simp only [bind, Except.bind]
      obtain ⟨i1, i2⟩ := S.isEol (f := f) hs (some c)
      rw [i1]
      cases hi : s.isEol f d (some c) with
      | error e => exact ⟨rfl, fun x h => by cases h⟩
      | ok x =>
        obtain ⟨s1, b⟩ := x
        have hs1 := i2 s1 b hi
        simp only [Except.map]
        cases b with
        | true =>
          simp only [if_true]
          rw [S.endStep hs1]
          cases he : s1.endStep f d tok curr with
          | error e => exact ⟨rfl, fun x h => by cases h⟩
          | ok y =>
            obtain ⟨s2, tok2⟩ := y
            simp only [Except.map]
            exact ih curr tok2 (endStep_in hs1 he)
        | false =>
          simp only [Bool.false_eq_true, if_false]
          obtain ⟨n1, n2⟩ := S.nextChar (bytes := bytes) hs1 c
          rw [n1]
          cases hn : s1.nextChar bytes d c with
          | error e => exact ⟨rfl, fun x h => by cases h⟩
          | ok y =>
            obtain ⟨s2, st⟩ := y
            obtain ⟨hs2, hst⟩ := n2 s2 st hn
            simp only [Except.map]
            have hs3 : In d (if f.bol then { s2 with bol := c == 10 } else s2) := by
              split
              · exact hs2
              · exact hs2
            have e3 : (if f.bol then { (s2.ren m) with bol := c == 10 } else s2.ren m) =
                (if f.bol then { s2 with bol := c == 10 } else s2).ren m := by
              split <;> rfl
            rw [e3]
            generalize (if f.bol then { s2 with bol := c == 10 } else s2) = s3 at hs3
            simp only [S.m_eq_zero hst]
            by_cases h0 : st = 0
            · simp only [h0, if_true]
              obtain ⟨j1, j2⟩ := S.isEol (f := f) hs3 none
              rw [j1]
              cases hj : s3.isEol f d none with
              | error e => exact ⟨rfl, fun x h => by cases h⟩
              | ok z =>
                refine ⟨rfl, ?_⟩
                intro x h
                cases h
                exact j2 _ _ hj
            · simp only [h0, if_false]
              rw [S.endStep hs3]
              cases he : s3.endStep f d tok (curr + 1) with
              | error e => exact ⟨rfl, fun x h => by cases h⟩
              | ok z =>
                obtain ⟨s4, tok4⟩ := z
                simp only [Except.map]
                exact ih (curr + 1) tok4 (endStep_in hs3 he)

theorem checkEol (S : Sim npos d d' m) {s : LuState} (hs : In d s) (tok curr : Nat) :
    (s.ren m).checkEol f npos d' tok curr eoi =
      (s.checkEol f npos d tok curr eoi).map fun x => (x.1.ren m, x.2) := by
  unfold LuState.checkEol
  have hnp := S.np s.eolState hs.2.2
  have e1 : (s.ren m).eolState = m s.eolState := rfl
  have e2 : (s.ren m).ptr = m s.ptr := rfl
  rw [e1, e2]
  by_cases hc : f.eol = true ∧ curr = eoi
  · rw [if_pos ⟨hc.1, hnp.2, hc.2⟩, if_pos ⟨hc.1, hnp.1, hc.2⟩]
    obtain ⟨e, he, h1, h2⟩ := S.eol s.ptr hs.1 hs.2.1
    rw [h1, h2]
    simp only [bind, Except.bind, ne_eq, S.m_eq_zero he]
    by_cases h0 : e = 0
    · simp [h0, S.m0, Except.map, LuState.ren]
    · simp only [h0, not_false_eq_true, if_true]
      exact S.endStep (s := { s with eolState := e, ptr := e }) ⟨Nat.pos_of_ne_zero h0, he, he⟩ tok curr
  · rw [if_neg (fun h => hc ⟨h.1, h.2.2⟩), if_neg (fun h => hc ⟨h.1, h.2.2⟩)]
    rfl

theorem init (S : Sim npos d d' m) (bol : Bool) (state : Nat) :
    LuState.init d' bol state = (LuState.init d bol state).map (·.ren m) ∧
    ∀ s, LuState.init d bol state = .ok s → In d s := by
  have c : ∀ c < 5, getCell d'.rows 1 c = getCell d.rows 1 c := by
    intro c h
    have := S.cell 1 c (by decide) S.size h
    rwa [S.m1] at this
  unfold LuState.init
  simp only [ixEnd, ixId, ixUserId, ixPushDfa]
  rw [c 0 (by decide), c 1 (by decide), c 2 (by decide), c 3 (by decide)]
  have := S.size
  cases getCell d.rows 1 0 with
  | error e => exact ⟨rfl, fun x h => by cases h⟩
  | ok v => cases getCell d.rows 1 1 with
    | error e => exact ⟨rfl, fun x h => by cases h⟩
    | ok a => cases getCell d.rows 1 2 with
      | error e => exact ⟨rfl, fun x h => by cases h⟩
      | ok b => cases getCell d.rows 1 3 with
        | error e => exact ⟨rfl, fun x h => by cases h⟩
        | ok c =>
          refine ⟨?_, ?_⟩
          · simp [bind, Except.bind, Except.map, LuState.ren, S.m0, S.m1]
          · intro s h
            cases h
            exact ⟨Nat.one_pos, S.size, by show 0 < _; omega⟩

theorem bolStartState (S : Sim npos d d' m) {s : LuState} (hs : In d s) :
    (s.ren m).bolStartState f d' = (s.bolStartState f d).map (·.ren m) ∧
    ∀ s', s.bolStartState f d = .ok s' → In d s' := by
  unfold LuState.bolStartState
  have e1 : (s.ren m).bol = s.bol := rfl
  rw [e1]
  by_cases hc : f.bol = true ∧ s.bol = true
  · rw [if_pos hc, if_pos hc]
    obtain ⟨b, hb, h1, h2⟩ := S.bol
    rw [h1, h2]
    simp only [bind, Except.bind, ne_eq, S.m_eq_zero hb]
    by_cases h0 : b = 0
    · simp only [h0, not_true_eq_false, if_false]
      exact ⟨rfl, fun x h => by cases h; exact hs⟩
    · simp only [h0, not_false_eq_true, if_true]
      exact ⟨rfl, fun x h => by cases h; exact ⟨Nat.pos_of_ne_zero h0, hb, hs.2.2⟩⟩
  · rw [if_neg hc, if_neg hc]
    exact ⟨rfl, fun x h => by cases h; exact hs⟩

end Sim

/-- Two machines whose tables correspond. -/
structure SimSm (npos : Nat) (sm sm' : Internals) : Prop where
  eoi : sm'.eoi = sm.eoi
  dfa : ∀ i, sm'.dfaAt i = sm.dfaAt i ∨
    ∃ d d' m, sm.dfaAt i = .ok d ∧ sm'.dfaAt i = .ok d' ∧ Sim npos d d' m

theorem sim_attempt {npos : Nat} {sm sm' : Internals} (S : SimSm npos sm sm') (f : Flags) (bytes : Nat)
    (inp : List Nat) (r : Results) (curr tok : Nat) :
    ∃ m : Nat → Nat, attempt f npos bytes sm' inp r curr tok =
      (attempt f npos bytes sm inp r curr tok).map fun x => (x.1.ren m, x.2) := by
  rcases S.dfa r.state with h | ⟨d, d', m, h1, h2, T⟩
  · refine ⟨id, ?_⟩
    have : attempt f npos bytes sm' inp r curr tok = attempt f npos bytes sm inp r curr tok := by
      unfold attempt
      rw [h]
    rw [this]
    cases attempt f npos bytes sm inp r curr tok <;> rfl
  · refine ⟨m, ?_⟩
    unfold attempt
    rw [h1, h2]
    simp only [bind, Except.bind]
    obtain ⟨a1, a2⟩ := T.init r.bol r.state
    rw [a1]
    cases hi : LuState.init d r.bol r.state with
    | error e => rfl
    | ok s0 =>
      simp only [Except.map]
      obtain ⟨b1, b2⟩ := T.bolStartState (f := f) (a2 s0 hi)
      rw [b1]
      cases hb : s0.bolStartState f d with
      | error e => rfl
      | ok s1 =>
        simp only [Except.map]
        have hs1 := b2 s1 hb
        have hscan : (s1.ren m).scan f bytes d' inp r.eoi (scanFuel d' r.eoi curr) curr tok =
            (s1.scan f bytes d inp r.eoi (scanFuel d r.eoi curr) curr tok).map fun x => (x.1.ren m, x.2) := by
          have key := fun F => (T.scan (f := f) (bytes := bytes) (inp := inp) (eoi := r.eoi) F curr tok hs1).1
          cases hsc : s1.scan f bytes d inp r.eoi (scanFuel d r.eoi curr) curr tok with
          | ok x =>
            rw [← hsc, ← key]
            exact scan_exact (by rw [key, hsc]; simp [Except.map])
          | error e =>
            by_cases he : e = .fuel
            · subst he
              have hall := scan_forever (r.eoi - curr) (Nat.le_refl _) (Nat.le_refl _) hsc
              rw [key, hall]
            · rw [← hsc, ← key]
              refine scan_exact ?_
              rw [key, hsc]
              intro h
              cases h
              exact he rfl
        rw [hscan]
        cases hsc : s1.scan f bytes d inp r.eoi (scanFuel d r.eoi curr) curr tok with
        | error e => rfl
        | ok x =>
          obtain ⟨s2, curr2, tok2⟩ := x
          simp only [Except.map]
          exact T.checkEol ((T.scan _ curr tok hs1).2 _ hsc) tok2 curr2

theorem sim_nextLoop {npos : Nat} {sm sm' : Internals} (S : SimSm npos sm sm') (f : Flags) (bytes : Nat)
    (inp : List Nat) (fuel : Nat) : ∀ (r : Results) (curr tok : Nat),
    nextLoop f npos bytes sm' inp fuel r curr tok = nextLoop f npos bytes sm inp fuel r curr tok := by
  induction fuel with
  | zero => intro r curr tok; rfl
  | succ fuel ih =>
    intro r curr tok
    rw [nextLoop, nextLoop, S.eoi]
    split
    · rfl
    · obtain ⟨m, h⟩ := sim_attempt S f bytes inp r curr tok
      rw [h]
      cases attempt f npos bytes sm inp r curr tok with
      | error e => rfl
      | ok x =>
        obtain ⟨s, tok2⟩ := x
        simp only [bind, Except.bind, Except.map]
        have e1 : (s.ren m).endState = s.endState := rfl
        rw [e1]
        split
        · have e2 : LuState.popStep f npos (s.ren m) r.stack =
              (s.popStep f npos r.stack).map fun x => (x.1.ren m, x.2) := by
            unfold LuState.popStep LuState.ren
            dsimp only
            split
            · split
              · split <;> rfl
              · split <;> rfl
            · rfl
          rw [e2]
          cases s.popStep f npos r.stack with
          | error e => rfl
          | ok y =>
            obtain ⟨s2, st⟩ := y
            simp only [Except.map]
            have e3 : (s2.ren m).isIdEoi f sm.eoi st = s2.isIdEoi f sm.eoi st := rfl
            have e4 : (s2.ren m).id = s2.id := rfl
            have e5 : (s2.ren m).uid = s2.uid := rfl
            have e6 : (s2.ren m).startState = s2.startState := rfl
            have e7 : (s2.ren m).endBol = s2.endBol := rfl
            rw [e3, e4, e5, e6, e7]
            split
            · exact ih _ _ _
            · split
              · exact ih _ _ _
              · rfl
        · rfl

/-- Machines whose tables correspond give the same results. -/
theorem sim_lookup {npos : Nat} {sm sm' : Internals} (S : SimSm npos sm sm') (f : Flags) (bytes : Nat)
    (inp : List Nat) (fuel : Nat) (r : Results) :
    lookupFuel f npos bytes sm' inp fuel r = lookupFuel f npos bytes sm inp fuel r :=
  sim_nextLoop S f bytes inp fuel _ _ _

end Lexertl

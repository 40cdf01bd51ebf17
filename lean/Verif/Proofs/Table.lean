import Verif.Model.Lookup

/-
Facts about `lookup` that hold for every table, whether it was made by the
generator or not.
-/
namespace Lexertl

/-- Whether position `q` of a scan that began at `p` with flag `b` is at the start of
a line. -/
def bolAt (inp : List Nat) (b : Bool) (p q : Nat) : Bool :=
  if q = p then b else inp[q - 1]? == some 10

/-- The result fields come from an end row of `rows`. -/
def FromRow (f : Flags) (rows : List Row) (s : LuState) : Prop :=
  ∃ row ∈ rows, ∃ e, row[ixEnd]? = some e ∧ e ≠ 0 ∧ row[ixId]? = some s.id ∧
    row[ixUserId]? = some s.uid ∧
    (f.recursive = true → s.pop = hasBit e bitPop ∧ row[ixPushDfa]? = some s.pushDfa)

/-- Invariant of the scanning loop, begun at `p`. -/
structure ScanInv (f : Flags) (d : Dfa) (inp : List Nat) (eoi : Nat) (b : Bool) (p : Nat)
    (s : LuState) (curr endTok : Nat) : Prop where
  lo : p ≤ endTok
  mid : endTok ≤ curr
  hi : curr ≤ eoi
  none : s.endState = false → endTok = p
  bol : f.bol = true → s.bol = bolAt inp b p curr ∧ s.endBol = bolAt inp b p endTok
  row : s.endState = true → FromRow f d.rows s

theorem getCell_ok {rows : List Row} {i c v : Nat} (h : getCell rows i c = .ok v) :
    ∃ row, rows[i]? = some row ∧ row[c]? = some v := by
  unfold getCell at h
  split at h
  · cases h
  · rename_i r hr
    split at h
    · rename_i w hw
      cases h
      exact ⟨r, hr, hw⟩
    · cases h

theorem bind_ok {α β : Type} {x : M α} {g : α → M β} {b : β} (h : (x >>= g) = .ok b) :
    ∃ a, x = .ok a ∧ g a = .ok b := by
  cases x with
  | error e => cases h
  | ok a => exact ⟨a, rfl, h⟩

theorem endStep_inv {f : Flags} {d : Dfa} {inp : List Nat} {eoi : Nat} {b : Bool} {p : Nat}
    {s s' : LuState} {curr endTok endTok' : Nat} (I : ScanInv f d inp eoi b p s curr endTok)
    (h : s.endStep f d endTok curr = .ok (s', endTok')) :
    ScanInv f d inp eoi b p s' curr endTok' := by
  unfold LuState.endStep at h
  obtain ⟨e, he, h⟩ := bind_ok h
  split at h
  · rename_i hne
    obtain ⟨id, hid, h⟩ := bind_ok h
    obtain ⟨uid, huid, h⟩ := bind_ok h
    obtain ⟨push, hpush, h⟩ := bind_ok h
    obtain ⟨next, hnext, h⟩ := bind_ok h
    cases h
    obtain ⟨row, r1, r2⟩ := getCell_ok he
    obtain ⟨_, r3, r4⟩ := getCell_ok hid
    rw [r1] at r3; cases r3
    obtain ⟨_, r3, r5⟩ := getCell_ok huid
    rw [r1] at r3; cases r3
    obtain ⟨_, r3, r6⟩ := getCell_ok hpush
    rw [r1] at r3; cases r3
    refine ⟨Nat.le_trans I.lo I.mid, Nat.le_refl _, I.hi, (fun h => by cases h), fun hb => ?_, fun _ => ?_⟩
    · obtain ⟨i1, i2⟩ := I.bol hb
      rw [show (if f.bol = true then s.bol else s.endBol) = s.bol by rw [if_pos hb]]
      exact ⟨i1, i1⟩
    · refine ⟨row, List.mem_of_getElem? r1, e, r2, hne, r4, r5, fun hr => ?_⟩
      rw [if_pos hr, if_pos hr]
      exact ⟨rfl, r6⟩
  · cases h
    exact I

theorem isEol_inv {f : Flags} {d : Dfa} {inp : List Nat} {eoi : Nat} {b : Bool} {p : Nat}
    {s s' : LuState} {curr endTok : Nat} {c : Option Nat} {x : Bool} (I : ScanInv f d inp eoi b p s curr endTok)
    (h : s.isEol f d c = .ok (s', x)) : ScanInv f d inp eoi b p s' curr endTok := by
  unfold LuState.isEol at h
  split at h
  · obtain ⟨e, he, h⟩ := bind_ok h
    dsimp only at h
    split at h <;> (cases h; exact ⟨I.lo, I.mid, I.hi, I.none, I.bol, I.row⟩)
  · cases h
    exact I

/-- `next_char` only moves `ptr_`. -/
theorem nextChar_ptr {bytes : Nat} {d : Dfa} {s s' : LuState} {c state : Nat}
    (h : s.nextChar bytes d c = .ok (s', state)) : ∃ q, s' = { s with ptr := q } := by
  unfold LuState.nextChar at h
  split at h
  · obtain ⟨st, h1, h⟩ := bind_ok h
    split at h <;> cases h
    · exact ⟨_, rfl⟩
    · exact ⟨s.ptr, rfl⟩
  · obtain ⟨⟨ptr, st⟩, h1, h⟩ := bind_ok h
    cases h
    exact ⟨_, rfl⟩

theorem charAt_ok {inp : List Nat} {eoi p c : Nat} (h : charAt inp eoi p = .ok c) :
    p < eoi ∧ inp[p]? = some c := by
  unfold charAt at h
  split at h
  · split at h
    · cases h; rename_i h1 _ h2; exact ⟨h1, h2⟩
    · cases h
  · cases h

theorem scan_inv {f : Flags} {bytes : Nat} {d : Dfa} {inp : List Nat} {eoi : Nat} {b : Bool} {p : Nat} :
    ∀ (fuel : Nat) {s s' : LuState} {curr endTok curr' endTok' : Nat},
    ScanInv f d inp eoi b p s curr endTok →
    s.scan f bytes d inp eoi fuel curr endTok = .ok (s', curr', endTok') →
    ScanInv f d inp eoi b p s' curr' endTok' ∨
      (curr' < eoi ∧ ScanInv f d inp eoi b p { s' with bol := bolAt inp b p curr' } curr' endTok') := by
  intro fuel
  induction fuel with
  | zero => intro s s' _ _ _ _ _ h; cases h
  | succ fuel ih =>
    intro s s' curr endTok curr' endTok' I h
    unfold LuState.scan at h
    split at h
    · cases h; exact .inl I
    · rename_i hne
      obtain ⟨c, hc, h⟩ := bind_ok h
      obtain ⟨⟨s1, eol⟩, h1, h⟩ := bind_ok h
      have I1 := isEol_inv I h1
      obtain ⟨hlt, hget⟩ := charAt_ok hc
      dsimp only at h
      split at h
      · obtain ⟨⟨s2, t2⟩, h2, h⟩ := bind_ok h
        exact ih (endStep_inv I1 h2) h
      · obtain ⟨⟨s2, st⟩, h2, h⟩ := bind_ok h
        obtain ⟨q, rfl⟩ := nextChar_ptr h2
        dsimp only at h
        split at h
        · obtain ⟨⟨s3, _⟩, h3, h⟩ := bind_ok h
          cases h
          right
          have I2 : ScanInv f d inp eoi b p { s1 with ptr := q, bol := bolAt inp b p curr } curr endTok :=
            ⟨I1.lo, I1.mid, I1.hi, I1.none, fun hb => ⟨rfl, (I1.bol hb).2⟩, I1.row⟩
          refine ⟨hlt, I1.lo, I1.mid, I1.hi, ?_, ?_, ?_⟩ <;>
          · unfold LuState.isEol at h3
            split at h3
            · obtain ⟨e, he, h3⟩ := bind_ok h3
              dsimp only at h3
              split at h3 <;> cases h3 <;> (split <;> first | exact I2.none | exact I2.bol | exact I2.row)
            · cases h3
              split <;> first | exact I2.none | exact I2.bol | exact I2.row
        · obtain ⟨⟨s3, t3⟩, h3, h⟩ := bind_ok h
          refine ih (endStep_inv ?_ h3) h
          have hle : p ≤ curr := Nat.le_trans I1.lo I1.mid
          have hb : bolAt inp b p (curr + 1) = (c == 10) := by
            unfold bolAt
            rw [if_neg (by omega), Nat.add_sub_cancel, hget]
            rfl
          cases hfb : f.bol with
          | true =>
            simp only [if_true]
            exact ⟨I1.lo, by have := I1.mid; omega, hlt, I1.none, fun hb' => ⟨hb.symm, (I1.bol hb').2⟩, I1.row⟩
          | false =>
            simp only [Bool.false_eq_true, if_false]
            exact ⟨I1.lo, by have := I1.mid; omega, hlt, I1.none, (fun hb' => by rw [hfb] at hb'; cases hb'), I1.row⟩

/-- What one match attempt at `p` yields: the end of the text, and fields that come
from an end row.  Nothing is known about the text, only about positions. -/
structure Attempted (f : Flags) (d : Dfa) (inp : List Nat) (eoi : Nat) (b : Bool) (p : Nat)
    (s : LuState) (endTok : Nat) : Prop where
  lo : p ≤ endTok
  hi : endTok ≤ eoi
  none : s.endState = false → endTok = p
  bol : f.bol = true → s.endBol = bolAt inp b p endTok
  row : s.endState = true → FromRow f d.rows s

theorem attempt_inv {f : Flags} {npos bytes : Nat} {sm : Internals} {inp : List Nat} {r : Results}
    {p endTok : Nat} {s : LuState} (hp : p ≤ r.eoi)
    (h : attempt f npos bytes sm inp r p p = .ok (s, endTok)) :
    ∃ d, sm.dfaAt r.state = .ok d ∧ Attempted f d inp r.eoi r.bol p s endTok := by
  unfold attempt at h
  obtain ⟨d, hd, h⟩ := bind_ok h
  refine ⟨d, hd, ?_⟩
  obtain ⟨s0, h0, h⟩ := bind_ok h
  obtain ⟨s1, h1, h⟩ := bind_ok h
  obtain ⟨⟨s2, curr, t2⟩, h2, h⟩ := bind_ok h
  have I0 : ScanInv f d inp r.eoi r.bol p s0 p p := by
    unfold LuState.init at h0
    obtain ⟨e, he, h0⟩ := bind_ok h0
    obtain ⟨id, hid, h0⟩ := bind_ok h0
    obtain ⟨uid, huid, h0⟩ := bind_ok h0
    obtain ⟨push, hpush, h0⟩ := bind_ok h0
    cases h0
    obtain ⟨row, r1, r2⟩ := getCell_ok he
    obtain ⟨_, r3, r4⟩ := getCell_ok hid
    rw [r1] at r3; cases r3
    obtain ⟨_, r3, r5⟩ := getCell_ok huid
    rw [r1] at r3; cases r3
    obtain ⟨_, r3, r6⟩ := getCell_ok hpush
    rw [r1] at r3; cases r3
    refine ⟨Nat.le_refl _, Nat.le_refl _, hp, fun _ => rfl, fun _ => ?_, fun hs => ?_⟩
    · simp [bolAt]
    · exact ⟨row, List.mem_of_getElem? r1, e, r2, by simpa using hs, r4, r5, fun _ => ⟨rfl, r6⟩⟩
  have I1 : ScanInv f d inp r.eoi r.bol p s1 p p := by
    unfold LuState.bolStartState at h1
    split at h1
    · obtain ⟨st, _, h1⟩ := bind_ok h1
      split at h1 <;> cases h1
      · exact ⟨I0.lo, I0.mid, I0.hi, I0.none, I0.bol, I0.row⟩
      · exact I0
    · cases h1; exact I0
  have fin : ∀ {s' t'}, ScanInv f d inp r.eoi r.bol p s' curr t' →
      Attempted f d inp r.eoi r.bol p s' t' := fun I =>
    ⟨I.lo, Nat.le_trans I.mid I.hi, I.none, fun hb => (I.bol hb).2, I.row⟩
  have I2 := scan_inv _ I1 h2
  unfold LuState.checkEol at h
  dsimp only at h
  rcases I2 with I2 | ⟨hlt, I2⟩
  · split at h
    · obtain ⟨e, he, h⟩ := bind_ok h
      have I3 : ∀ q : Nat, ScanInv f d inp r.eoi r.bol p { s2 with eolState := e, ptr := q } curr t2 :=
        fun q => ⟨I2.lo, I2.mid, I2.hi, I2.none, I2.bol, I2.row⟩
      split at h
      · exact fin (endStep_inv (I3 e) h)
      · cases h; exact fin (I3 s2.ptr)
    · cases h; exact fin I2
  · rw [if_neg (by omega)] at h
    cases h
    exact ⟨I2.lo, Nat.le_trans I2.mid I2.hi, I2.none, fun hb => (I2.bol hb).2, I2.row⟩

theorem popStep_fields {f : Flags} {npos : Nat} {s s' : LuState} {st st' : List (Nat × Nat)}
    (h : s.popStep f npos st = .ok (s', st')) :
    s'.id = s.id ∧ s'.uid = s.uid ∧ s'.endBol = s.endBol ∧ s'.pop = s.pop ∧ s'.endState = s.endState := by
  unfold LuState.popStep at h
  split at h
  · split at h
    · split at h <;> cases h
      exact ⟨rfl, rfl, rfl, rfl, rfl⟩
    · split at h <;> (cases h; exact ⟨rfl, rfl, rfl, rfl, rfl⟩)
  · cases h; exact ⟨rfl, rfl, rfl, rfl, rfl⟩

end Lexertl

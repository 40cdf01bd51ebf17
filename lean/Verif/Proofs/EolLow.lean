import Verif.Proofs.Wide
import Verif.Spec.Line
import Verif.Proofs.Adds

/-
Machines with characters of several bytes: a charset with a character whose first byte
is 0 makes the parser know the charset of the byte 0.
-/
namespace Lexertl.Slice
open Spec

/-- Some row starts with the charset `a`. -/
def Heads (a : Token) (d : Slices) : Prop := ∃ row ∈ d, row.head? = some a

theorem heads_cons {a : Token} {row : List Token} {d : Slices} : Heads a (row :: d) ↔ row.head? = some a ∨ Heads a d := by
  simp [Heads]

theorem insertRow2_heads (t t2 : Token) : ∀ d, Heads t (insertRow2 t t2 d) ∧ ∀ a, Heads a d → Heads a (insertRow2 t t2 d)
  | [] => ⟨⟨[t, t2], by simp [insertRow2], rfl⟩, fun a ⟨_, h, _⟩ => by cases h⟩
  | row :: rows => by
    obtain ⟨h1, h2⟩ := insertRow2_heads t t2 rows
    unfold insertRow2
    split
    · rename_i a b
      split
      · rename_i h
        have h := eq_of_beq h
        subst h
        exact ⟨heads_cons.2 (.inl rfl), fun c hc => by rw [heads_cons] at hc ⊢; exact hc.imp (fun h => h) (fun h => h)⟩
      · exact ⟨heads_cons.2 (.inr h1), fun c hc => by rw [heads_cons] at hc ⊢; exact hc.imp (fun h => h) (h2 c)⟩
    · exact ⟨heads_cons.2 (.inr h1), fun c hc => by rw [heads_cons] at hc ⊢; exact hc.imp (fun h => h) (h2 c)⟩

theorem insertRow3_heads (t t2 t3 : Token) :
    ∀ d, Heads t (insertRow3 t t2 t3 d) ∧ ∀ a, Heads a d → Heads a (insertRow3 t t2 t3 d)
  | [] => ⟨⟨[t, t2, t3], by simp [insertRow3], rfl⟩, fun a ⟨_, h, _⟩ => by cases h⟩
  | row :: rows => by
    obtain ⟨h1, h2⟩ := insertRow3_heads t t2 t3 rows
    unfold insertRow3
    split
    · rename_i a b c
      split
      · rename_i h
        rw [Bool.and_eq_true] at h
        have h := eq_of_beq h.1
        subst h
        exact ⟨heads_cons.2 (.inl rfl), fun c hc => by rw [heads_cons] at hc ⊢; exact hc.imp (fun h => h) (fun h => h)⟩
      · exact ⟨heads_cons.2 (.inr h1), fun c hc => by rw [heads_cons] at hc ⊢; exact hc.imp (fun h => h) (h2 c)⟩
    · exact ⟨heads_cons.2 (.inr h1), fun c hc => by rw [heads_cons] at hc ⊢; exact hc.imp (fun h => h) (h2 c)⟩

theorem slice16_heads (r : Range) (d : Slices) : Heads (orderedToken (r.1 / 256 % 256) (r.1 / 256 % 256)) (slice16 r d) ∧
    ∀ a, Heads a d → Heads a (slice16 r d) := by
  unfold slice16
  simp only
  split
  · exact insertRow2_heads ..
  · split
    · exact ⟨(insertRow2_heads ..).2 _ ((insertRow2_heads ..).2 _ (insertRow2_heads ..).1),
        fun a h => (insertRow2_heads ..).2 _ ((insertRow2_heads ..).2 _ ((insertRow2_heads ..).2 _ h))⟩
    · exact ⟨(insertRow2_heads ..).2 _ (insertRow2_heads ..).1,
        fun a h => (insertRow2_heads ..).2 _ ((insertRow2_heads ..).2 _ h)⟩

theorem fold3_heads (h : Token) : ∀ (rows : Slices) (d : Slices), (∀ row ∈ rows, row.length = 2) →
    (rows ≠ [] → Heads h (rows.foldl (fun d row => match row with
      | [a, b] => insertRow3 h a b d
      | _ => d) d)) ∧ ∀ c, Heads c d → Heads c (rows.foldl (fun d row => match row with
      | [a, b] => insertRow3 h a b d
      | _ => d) d)
  | [], d, _ => ⟨fun h => absurd rfl h, fun _ h => h⟩
  | row :: rows, d, hr => by
    rw [List.foldl_cons]
    match row, hr row (by simp) with
    | [a, b], _ =>
      obtain ⟨_, k2⟩ := fold3_heads h rows (insertRow3 h a b d) fun x hx => hr x (by simp [hx])
      exact ⟨fun _ => k2 _ (insertRow3_heads ..).1, fun c hc => k2 _ ((insertRow3_heads ..).2 c hc)⟩

theorem slice24_heads (r : Range) (d : Slices) :
    Heads (orderedToken (r.1 / 65536 % 256) (r.1 / 65536 % 256)) (slice24 r d) ∧ ∀ a, Heads a d → Heads a (slice24 r d) := by
  unfold slice24
  simp only
  split
  · have hlen : ∀ row ∈ slice16 r [], row.length = 2 := by
      have ins : ∀ (t t2 : Token) (d : Slices), (∀ row ∈ d, row.length = 2) → ∀ row ∈ insertRow2 t t2 d, row.length = 2 := by
        intro t t2 d
        induction d with
        | nil => intro _ row h; simp [insertRow2] at h; rw [h]; rfl
        | cons x d ih =>
          intro hx row h
          have ih := ih fun y hy => hx y (by simp [hy])
          have h0 := hx x (by simp)
          unfold insertRow2 at h
          split at h
          · split at h
            · rcases List.mem_cons.1 h with rfl | h
              · rfl
              · exact hx row (by simp [h])
            · rcases List.mem_cons.1 h with rfl | h
              · rfl
              · exact ih row h
          · rcases List.mem_cons.1 h with rfl | h
            · exact h0
            · exact ih row h
      unfold slice16
      simp only
      split
      · exact ins _ _ _ (by simp)
      · split
        · exact ins _ _ _ (ins _ _ _ (ins _ _ _ (by simp)))
        · exact ins _ _ _ (ins _ _ _ (by simp))
    have hne : slice16 r [] ≠ [] := by
      intro h
      obtain ⟨row, h1, _⟩ := (slice16_heads r []).1
      rw [h] at h1
      cases h1
    obtain ⟨k1, k2⟩ := fold3_heads (orderedToken (r.1 / 65536 % 256) (r.1 / 65536 % 256)) (slice16 r []) d hlen
    exact ⟨k1 hne, k2⟩
  · have i := fun t t2 t3 d => (insertRow3_heads t t2 t3 d).2
    have j := fun t t2 t3 d => (insertRow3_heads t t2 t3 d).1
    repeat' split
    all_goals
      refine ⟨?_, fun a h => ?_⟩
      · repeat' first | exact j _ _ _ _ | apply i
      · repeat' first | exact h | apply i

/-- A charset with a character whose first byte is 0 is cut into rows one of which
starts with the charset of the byte 0. -/
theorem sliceToken_low (char24 : Bool) (t : Token) (ht : ∀ r ∈ t, r.1 ≤ r.2)
    (h : ∃ c, Mem c t ∧ (if char24 then c / 65536 else c / 256) = 0) : Heads [(0, 0)] (sliceToken char24 t) := by
  have one : ∀ (r : Range) (d : Slices), r.1 ≤ r.2 → ((if char24 then r.1 / 65536 else r.1 / 256) = 0 →
      Heads [(0, 0)] (if char24 then slice24 r d else slice16 r d)) ∧
      ∀ a, Heads a d → Heads a (if char24 then slice24 r d else slice16 r d) := by
    intro r d hr
    cases char24 with
    | false =>
      simp only [Bool.false_eq_true, if_false]
      obtain ⟨h1, h2⟩ := slice16_heads r d
      exact ⟨fun h => by rw [h] at h1; exact h1, h2⟩
    | true =>
      simp only [if_true]
      obtain ⟨h1, h2⟩ := slice24_heads r d
      exact ⟨fun h => by rw [h] at h1; exact h1, h2⟩
  have keep : ∀ (t : Token) (d : Slices), (∀ r ∈ t, r.1 ≤ r.2) → Heads [(0, 0)] d →
      Heads [(0, 0)] (t.foldl (fun d r => if char24 then slice24 r d else slice16 r d) d) := by
    intro t
    induction t with
    | nil => intro d _ h; exact h
    | cons r t ih =>
      intro d ht h
      exact ih _ (fun x hx => ht x (by simp [hx])) ((one r d (ht r (by simp))).2 _ h)
  have go : ∀ (t : Token) (d : Slices), (∀ r ∈ t, r.1 ≤ r.2) → (∃ c, Mem c t ∧ (if char24 then c / 65536 else c / 256) = 0) →
      Heads [(0, 0)] (t.foldl (fun d r => if char24 then slice24 r d else slice16 r d) d) := by
    intro t
    induction t with
    | nil => rintro d _ ⟨c, ⟨r, h, _⟩, _⟩; cases h
    | cons r t ih =>
      rintro d ht ⟨c, ⟨x, hx, h1, h2⟩, h3⟩
      rw [List.foldl_cons]
      rcases List.mem_cons.1 hx with rfl | hx
      · refine keep t _ (fun y hy => ht y (by simp [hy])) ((one x d (ht x (by simp))).1 ?_)
        cases char24 <;> simp only [Bool.false_eq_true, if_false, if_true] at h3 ⊢ <;> omega
      · exact ih _ (fun y hy => ht y (by simp [hy])) ⟨c, ⟨x, hx, h1, h2⟩, h3⟩
  exact go t [] ht h

end Lexertl.Slice

namespace Lexertl
open Spec Slice

/-! Charsets the parser knows. -/

/-- The parser knows all charsets it knew, and `t`. -/
def Knows (t : Token) (m m' : CharsetMap) : Prop := (∀ e ∈ m, e ∈ m') ∧ ∃ id, (t, id) ∈ m'

theorem pushRange_charsets (tr : Traits) (p : PState) (t : Token) : Knows t p.charsets (p.pushRange tr t).charsets := by
  obtain ⟨h1, h2⟩ := PState.lookup_spec tr p t
  have h3 : (p.pushRange tr t).charsets = csLookup tr p.charsets t := by
    have h3 : p.pushRange tr t = ((p.lookup tr t).1).pushLeaf tr (p.lookup tr t).2 .yes := rfl
    rw [h3, h1]; rfl
  rw [h3]
  exact ⟨csLookup_sub tr _ t, _, h2⟩

theorem sequence_charsets {p q : PState} (h : p.sequence = .ok q) : q.charsets = p.charsets := by
  unfold PState.sequence at h
  split at h
  · simp only [bind, Except.bind] at h
    split at h
    · cases h
    · cases h; rfl
  · cases h

theorem performOr_charsets {p q : PState} (h : p.performOr = .ok q) : q.charsets = p.charsets := by
  unfold PState.performOr at h
  split at h
  · cases h; rfl
  · cases h

theorem rowFold_charsets (tr : Traits) : ∀ (ts : List Token) (p q : PState),
    ts.foldlM (fun p t => (p.pushRange tr t).sequence) p = .ok q → ∀ e ∈ p.charsets, e ∈ q.charsets
  | [], p, q, h => by cases h; exact fun _ h => h
  | t :: ts, p, q, h => by
    rw [List.foldlM_cons] at h
    simp only [bind, Except.bind] at h
    split at h
    · cases h
    · rename_i p1 h1
      intro e he
      refine rowFold_charsets tr ts p1 q h e ?_
      rw [sequence_charsets h1]
      exact (pushRange_charsets tr p t).1 e he

theorem pushRow_charsets {tr : Traits} {p q : PState} {row : List Token} (h : p.pushRow tr row = .ok q) :
    (∀ e ∈ p.charsets, e ∈ q.charsets) ∧ ∀ t, row.head? = some t → ∃ id, (t, id) ∈ q.charsets := by
  cases row with
  | nil => cases h
  | cons t ts =>
    have h1 := rowFold_charsets tr ts _ q h
    obtain ⟨k1, id, k2⟩ := pushRange_charsets tr p t
    refine ⟨fun e he => h1 e (k1 e he), fun t' ht => ?_⟩
    cases ht
    exact ⟨id, h1 _ k2⟩

theorem rowsFold_charsets {tr : Traits} : ∀ (rows : Slices) (p q : PState),
    rows.foldlM (fun p row => do (← p.pushRow tr row).performOr) p = .ok q →
    (∀ e ∈ p.charsets, e ∈ q.charsets) ∧ ∀ t, Heads t rows → ∃ id, (t, id) ∈ q.charsets
  | [], p, q, h => by
    cases h
    exact ⟨fun _ h => h, fun t ⟨_, h, _⟩ => by cases h⟩
  | row :: rows, p, q, h => by
    rw [List.foldlM_cons] at h
    simp only [bind, Except.bind] at h
    split at h
    · cases h
    · rename_i p1 h1
      split at h1
      · cases h1
      · rename_i p2 h2
        obtain ⟨k1, k2⟩ := pushRow_charsets h2
        obtain ⟨k3, k4⟩ := rowsFold_charsets rows p1 q h
        rw [performOr_charsets h1] at k3
        refine ⟨fun e he => k3 e (k1 e he), fun t ht => ?_⟩
        rcases heads_cons.1 ht with ht | ht
        · obtain ⟨id, hid⟩ := k2 t ht
          exact ⟨id, k3 _ hid⟩
        · exact k4 t ht

theorem pushRows_charsets {tr : Traits} {p q : PState} {rows : Slices} (h : p.pushRows tr rows = .ok q) {t : Token}
    (ht : Heads t rows) : ∃ id, (t, id) ∈ q.charsets := by
  cases rows with
  | nil => cases h
  | cons row rows =>
    simp only [PState.pushRows, bind, Except.bind] at h
    split at h
    · cases h
    · rename_i p1 h1
      obtain ⟨k1, k2⟩ := pushRow_charsets h1
      obtain ⟨k3, k4⟩ := rowsFold_charsets rows p1 q h
      rcases heads_cons.1 ht with ht | ht
      · obtain ⟨id, hid⟩ := k2 t ht
        exact ⟨id, k3 _ hid⟩
      · exact k4 t ht

/-- An expression with a character whose first byte is 0. -/
theorem adds_low (tr : Traits) (hc : tr.compressed = true) (r : Re) (hr : r.AllChars (Wide.SetOk tr)) (hk : r.CountsOk)
    (hl : r.SomeChars fun t => ∃ c, Mem c t ∧ firstByte tr c = 0) : Adds tr (Token.ofRange 0 0) (some r) := by
  refine ⟨r, rfl, ?_⟩
  induction r with
  | chars t =>
    intro p p1 h
    have h : p.pushRows tr (sliceToken tr.char24 t) = .ok p1 := by
      simpa only [PState.act, hc, if_true] using h
    refine pushRows_charsets h (sliceToken_low _ _ hr.1.1 ?_)
    obtain ⟨c, h1, h2⟩ := hl
    exact ⟨c, h1, by simpa [firstByte, hc] using h2⟩
  | bol => exact hl.elim
  | eol => exact hl.elim
  | seq l r ihl ihr =>
    intro p p1 h
    obtain ⟨q, _, b1, -⟩ := Wide.act_wide tr l hr.1 hk.1 p
    obtain ⟨q2, _, b2, _, _, b3, -⟩ := Wide.act_wide tr r hr.2 hk.2 q
    simp only [PState.act, bind, Except.bind, b1, b2] at h
    rw [sequence_charsets h]
    rcases hl with hl | hl
    · obtain ⟨id, hid⟩ := ihl hr.1 hk.1 hl p q b1
      exact ⟨id, b3.sub _ hid⟩
    · exact ihr hr.2 hk.2 hl q q2 b2
  | alt l r ihl ihr =>
    intro p p1 h
    obtain ⟨q, _, b1, -⟩ := Wide.act_wide tr l hr.1 hk.1 p
    obtain ⟨q2, _, b2, _, _, b3, -⟩ := Wide.act_wide tr r hr.2 hk.2 q
    simp only [PState.act, bind, Except.bind, b1, b2] at h
    rw [performOr_charsets h]
    rcases hl with hl | hl
    · obtain ⟨id, hid⟩ := ihl hr.1 hk.1 hl p q b1
      exact ⟨id, b3.sub _ hid⟩
    · exact ihr hr.2 hk.2 hl q q2 b2
  | opt r lz ih =>
    intro p p1 h
    obtain ⟨q, t, b1, b2, b3, -⟩ := Wide.act_wide tr r hr hk p
    obtain ⟨_, _, c1, -⟩ := PState.optional_spec tr _ q t _ b2 b3 _ (opGreedy_ne lz)
    simp only [PState.act, bind, Except.bind, b1] at h
    rw [c1] at h
    cases h
    exact ih hr hk hl p q b1
  | star r lz ih =>
    intro p p1 h
    obtain ⟨q, t, b1, b2, b3, -⟩ := Wide.act_wide tr r hr hk p
    obtain ⟨_, _, c1, -⟩ := PState.zeroOrMore_spec tr _ q t _ b2 b3 _ (opGreedy_ne lz)
    simp only [PState.act, bind, Except.bind, b1] at h
    rw [c1] at h
    cases h
    exact ih hr hk hl p q b1
  | plus r lz ih =>
    intro p p1 h
    obtain ⟨q, t, b1, b2, b3, -⟩ := Wide.act_wide tr r hr hk p
    obtain ⟨_, _, c1, -⟩ := PState.oneOrMore_spec tr _ q t _ b2 b3 _ (opGreedy_ne lz)
    simp only [PState.act, bind, Except.bind, b1] at h
    rw [c1] at h
    cases h
    exact ih hr hk hl p q b1
  | rep r lo hi lz ih =>
    intro p p1 h
    obtain ⟨q, t, b1, b2, b3, -⟩ := Wide.act_wide tr r hr hk.2 p
    obtain ⟨_, _, c1, -⟩ := PState.repeatCounts_spec tr _ q t _ b2 b3 _ (opGreedy_ne lz) lo hi hk.1
    simp only [PState.act, bind, Except.bind, b1] at h
    rw [c1] at h
    cases h
    exact ih hr hk.2 hl p q b1

end Lexertl

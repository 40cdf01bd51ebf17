import Verif.Proofs.Sets
import Verif.Proofs.Next

/-
Quotes, comments and white space in front of a lexeme are passed over.
-/
namespace Lexertl.Reading
open Spec

theorem commentEnd_ok {n : Nat} {v : List Nat} (h : Comment n v) (w : List Nat) : commentEnd n (v ++ w) = .ok w := by
  induction h with
  | done => rfl
  | opn n v _ ih => simp only [List.cons_append, commentEnd, if_true]; exact ih
  | cls n v _ ih =>
    simp only [List.cons_append, commentEnd]
    rw [if_neg (by decide), if_pos trivial, if_neg (by omega)]
    exact ih
  | other n c v h1 h2 _ ih =>
    simp only [List.cons_append, commentEnd]
    rw [if_neg h1, if_neg h2]
    exact ih

theorem cCommentEnd_ok {v : List Nat} (h : CComment v) (w : List Nat) : cCommentEnd (v ++ w) = .ok w := by
  induction h with
  | done => rfl
  | other c v h1 h2 ih =>
    simp only [List.cons_append, cCommentEnd]
    rw [if_neg, ih]
    rintro ⟨h3, h4⟩
    refine h1 ⟨h3, ?_⟩
    cases h2 <;> simpa using h4

theorem isWs_iff (c : Nat) : isWs c = true ↔ IsSpace c := by
  simp only [isWs, IsSpace, Bool.or_eq_true, decide_eq_true_eq, List.mem_cons, List.not_mem_nil, or_false, or_assoc]

/-- The text is passed over by `leadIn`, up to `w'`. -/
def Leads (f : ReFlags) (b : Bool) (w : List Nat) (b' : Bool) (w' : List Nat) : Prop :=
  ∀ n, w.length < n → leadIn f n b w = .ok (b', w')

/-- White space or a comment between `/*` and `*/` starts here. -/
def Skippable (w : List Nat) : Prop := ∃ c cs, w = c :: cs ∧ ((c = 47 ∧ cs.head? = some 42) ∨ isWs c = true)

theorem skipLoop_no {n : Nat} {s : Bool} {w : List Nat} (h : ¬ Skippable w) : skipLoop (n + 1) s w = .ok (s, w) := by
  cases w with
  | nil => rfl
  | cons c cs =>
    unfold skipLoop
    rw [if_neg fun h1 => h ⟨c, cs, rfl, .inl h1⟩, if_neg fun h1 => h ⟨c, cs, rfl, .inr h1⟩]

theorem skipLoop_flag : ∀ (n : Nat) (w : List Nat), Skippable w → skipLoop (n + 1) false w = skipLoop (n + 1) true w := by
  rintro n w ⟨c, cs, rfl, h⟩
  unfold skipLoop
  split
  · rfl
  · rename_i h1
    rw [if_pos (h.resolve_left h1)]
    rw [if_pos (h.resolve_left h1)]

theorem skipLoop_fuel : ∀ (n m : Nat) (s : Bool) (w : List Nat), w.length < n → w.length < m → skipLoop n s w = skipLoop m s w
  | 0, _, _, _, h, _ => by omega
  | _ + 1, 0, _, _, _, h => by omega
  | n + 1, m + 1, s, w, h1, h2 => by
    cases w with
    | nil => rfl
    | cons c cs =>
      simp only [List.length_cons] at h1 h2
      unfold skipLoop
      split
      · have := cCommentEnd_total cs.tail
        cases hc : cCommentEnd cs.tail with
        | error e => rfl
        | ok r =>
          rw [hc] at this
          have l1 := Adv.length this
          have l2 : cs.tail.length ≤ cs.length := by simp
          simp only [bind, Except.bind]
          exact skipLoop_fuel n m true r (by omega) (by omega)
      · split
        · exact skipLoop_fuel n m true cs (by omega) (by omega)
        · rfl

theorem skipLoop_true : ∀ (n : Nat) (w : List Nat) (s : Bool) (r : List Nat), skipLoop n true w = .ok (s, r) → s = true
  | 0, _, _, _, h => by cases h
  | n + 1, [], s, r, h => by cases h; rfl
  | n + 1, c :: cs, s, r, h => by
    unfold skipLoop at h
    split at h
    · cases hc : cCommentEnd cs.tail with
      | error e => rw [hc] at h; cases h
      | ok x => rw [hc] at h; exact skipLoop_true n x s r h
    · split at h
      · exact skipLoop_true n cs s r h
      · cases h; rfl

/-- `leadIn` where white space starts. -/
theorem leadIn_skippable {f : ReFlags} (hf : f.skipWs = true) {w : List Nat} (h : Skippable w) (n : Nat) :
    leadIn f (n + 1) false w = (do
      let (_, cs) ← skipLoop (w.length + 1) true w
      if cs ≠ [] then leadIn f n false cs else .ok (false, cs)) := by
  have h' := h
  obtain ⟨c, cs, rfl, hc⟩ := h'
  have h34 : c ≠ 34 := by
    rintro rfl
    rcases hc with h | h
    · exact absurd h.1 (by decide)
    · exact absurd h (by decide)
  have h40 : c ≠ 40 := by
    rintro rfl
    rcases hc with h | h
    · exact absurd h.1 (by decide)
    · exact absurd h (by decide)
  have hq : quotes false (c :: cs) = (false, c :: cs) := by unfold quotes; rw [if_neg h34]
  have hcm : comment false (c :: cs) = .ok (false, c :: cs) := by
    unfold comment
    split
    · rename_i heq; injection heq with h1; exact absurd h1 h40
    · rfl
  have hsk : skip f false (c :: cs) = skipLoop ((c :: cs).length + 1) true (c :: cs) := by
    unfold skip
    rw [if_pos ⟨hf, rfl⟩]
    exact skipLoop_flag _ _ h
  conv => lhs; unfold leadIn
  rw [hq]
  simp only [hcm, hsk, bind, Except.bind]
  rw [if_neg (by simp), if_neg (by simp)]
  cases hs : skipLoop ((c :: cs).length + 1) true (c :: cs) with
  | error e => rfl
  | ok x =>
    obtain ⟨s, r⟩ := x
    have := skipLoop_true _ _ _ _ hs
    subst this
    simp

/-- After some white space, `leadIn` goes on as if it started here. -/
theorem leads_skip {f : ReFlags} (hf : f.skipWs = true) {w w' : List Nat} {b' : Bool} (h : Leads f false w b' w') {m n : Nat} (hm : w.length < m)
    (hn : w.length < n) : (do
      let (_, cs) ← skipLoop m true w
      if cs ≠ [] then leadIn f n false cs else .ok (false, cs)) = .ok (b', w') := by
  rw [skipLoop_fuel m (w.length + 1) true w hm (by omega)]
  by_cases hs : Skippable w
  · rw [← leadIn_skippable hf hs n]
    exact h (n + 1) (by omega)
  · rw [skipLoop_no hs]
    simp only [bind, Except.bind]
    have := h n hn
    split
    · exact this
    · rename_i h0
      simp only [ne_eq, Decidable.not_not] at h0
      subst h0
      obtain ⟨n, rfl⟩ : ∃ k, n = k + 1 := ⟨n - 1, by omega⟩
      rw [← this]
      rfl

theorem leads_quote {f : ReFlags} {b b' : Bool} {w w' : List Nat} (h : Leads f (!b) w b' w') : Leads f b (34 :: w) b' w' := by
  intro n hn
  simp only [List.length_cons] at hn
  obtain ⟨n, rfl⟩ : ∃ k, n = k + 1 := ⟨n - 1, by omega⟩
  rw [← h (n + 1) (by omega)]
  unfold leadIn
  have : quotes b (34 :: w) = quotes (!b) w := by rw [quotes]; rw [if_pos rfl]
  rw [this]

theorem leads_space {f : ReFlags} (hf : f.skipWs = true) {c : Nat} (hc : IsSpace c) {w w' : List Nat} {b' : Bool} (h : Leads f false w b' w') :
    Leads f false (c :: w) b' w' := by
  intro n hn
  simp only [List.length_cons] at hn
  obtain ⟨n, rfl⟩ : ∃ k, n = k + 1 := ⟨n - 1, by omega⟩
  have hws := (isWs_iff c).2 hc
  rw [leadIn_skippable hf ⟨c, w, rfl, .inr hws⟩]
  have h47 : c ≠ 47 := by rintro rfl; exact absurd hws (by decide)
  have : skipLoop ((c :: w).length + 1) true (c :: w) = skipLoop (w.length + 1) true w := by
    rw [List.length_cons]
    conv => lhs; unfold skipLoop
    rw [if_neg fun h => h47 h.1, if_pos hws]
  rw [this]
  exact leads_skip hf h (by omega) (by omega)

theorem leads_ccomment {f : ReFlags} (hf : f.skipWs = true) {v : List Nat} (hv : CComment v) {w w' : List Nat} {b' : Bool} (h : Leads f false w b' w') :
    Leads f false (47 :: 42 :: v ++ w) b' w' := by
  intro n hn
  simp only [List.cons_append, List.length_cons, List.length_append] at hn
  obtain ⟨n, rfl⟩ : ∃ k, n = k + 1 := ⟨n - 1, by omega⟩
  rw [leadIn_skippable hf (w := 47 :: 42 :: v ++ w) ⟨47, 42 :: v ++ w, rfl, .inl ⟨rfl, rfl⟩⟩]
  have : skipLoop ((47 :: 42 :: v ++ w).length + 1) true (47 :: 42 :: v ++ w) = skipLoop ((47 :: 42 :: v ++ w).length) true w := by
    conv => lhs; unfold skipLoop
    simp only [List.cons_append]
    rw [if_pos ⟨trivial, rfl⟩, List.tail_cons, cCommentEnd_ok hv]
    rfl
  rw [this]
  exact leads_skip hf h (by simp; omega) (by omega)

theorem leads_comment {f : ReFlags} {v : List Nat} (hv : Comment 1 v) {w w' : List Nat} {b' : Bool} (h : Leads f false w b' w') :
    Leads f false (40 :: 63 :: 35 :: v ++ w) b' w' := by
  intro n hn
  simp only [List.cons_append, List.length_cons, List.length_append] at hn
  obtain ⟨n, rfl⟩ : ∃ k, n = k + 1 := ⟨n - 1, by omega⟩
  have hcm : comment false (40 :: 63 :: 35 :: v ++ w) = .ok (true, w) := by
    simp only [List.cons_append, comment, Bool.false_eq_true, if_false, commentEnd_ok hv, bind, Except.bind]
  have hq : quotes false (40 :: 63 :: 35 :: v ++ w) = (false, 40 :: 63 :: 35 :: v ++ w) := by
    simp only [List.cons_append]
    rw [quotes]; rw [if_neg (by decide)]
  unfold leadIn
  rw [hq]
  simp only [hcm, bind, Except.bind]
  rw [if_neg (by simp)]
  by_cases hw : w = []
  · subst hw
    rw [if_pos rfl, ← h 1 (by simp)]
    rfl
  rw [if_neg hw]
  unfold skip
  by_cases hf : f.skipWs = true
  · rw [if_pos ⟨hf, rfl⟩]
    by_cases hs : Skippable w
    · have h1 := leads_skip hf h (m := w.length + 1) (n := n) (by omega) (by omega)
      rw [skipLoop_flag _ _ hs]
      simp only [bind, Except.bind] at h1
      cases hk : skipLoop (w.length + 1) true w with
      | error e => rw [hk] at h1; cases h1
      | ok x =>
        obtain ⟨s, r⟩ := x
        rw [hk] at h1
        simpa using h1
    · rw [skipLoop_no hs]
      simp only [Bool.or_false, ne_eq, hw, not_false_eq_true, and_self, if_true]
      exact h n (by omega)
  · rw [if_neg fun h => hf h.1]
    simp only [Bool.or_false, ne_eq, hw, not_false_eq_true, and_self, if_true]
    exact h n (by omega)

/-- Nothing to be passed over. -/
structure Quiet (f : ReFlags) (b : Bool) (w : List Nat) : Prop where
  quote : w.head? ≠ some 34
  comment : b = false → ∀ cs, w ≠ 40 :: 63 :: 35 :: cs
  skip : b = false → f.skipWs = true → ¬ Skippable w

theorem leads_quiet {f : ReFlags} {b : Bool} {w : List Nat} (h : Quiet f b w) : Leads f b w b w := by
  intro n hn
  obtain ⟨n, rfl⟩ : ∃ k, n = k + 1 := ⟨n - 1, by omega⟩
  cases w with
  | nil => rfl
  | cons c cs =>
    have hq : quotes b (c :: cs) = (b, c :: cs) := by
      rw [quotes]; rw [if_neg (by simpa using h.quote)]
    have hcm : Lexertl.comment b (c :: cs) = .ok (false, c :: cs) := by
      unfold Lexertl.comment
      split
      · rename_i heq
        cases b with
        | true => rfl
        | false => exact absurd heq (h.comment rfl _)
      · rfl
    have hsk : Lexertl.skip f b (c :: cs) = .ok (false, c :: cs) := by
      unfold Lexertl.skip
      split
      · rename_i hf
        exact skipLoop_no (h.skip hf.2 hf.1)
      · rfl
    unfold leadIn
    rw [hq]
    simp only [hcm, hsk, bind, Except.bind]
    rw [if_neg (by simp), if_neg (by simp), if_neg (by simp)]

end Lexertl.Reading

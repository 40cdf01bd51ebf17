import Verif.Proofs.Chars

/-
Bracketed charsets, shorthands and POSIX classes are read as `Verif.Spec.Reads` says.
-/
namespace Lexertl.Reading
open Spec

/-- What the loop of `charset` does after a round. -/
def after (E : TokEnv) (ic : Bool) (sub : List Nat → M Token) (n : Nat) (t : Token) : List Nat → M (Token × List Nat)
  | [] => .error (.ub "charset at the end")
  | c :: cs => if c ≠ 93 then charsetLoop E ic sub n t (c :: cs) else .ok (t, cs)

theorem noDash_cond {d : Nat} {rest : List Nat} (h : NoDash (d :: rest)) : ¬ (d = 45 ∧ rest.headD 0 ≠ 93) := by
  rintro ⟨rfl, h2⟩
  have := h rfl
  cases rest with
  | nil => cases this
  | cons e rest =>
    simp only [List.tail_cons, List.head?_cons, Option.some.injEq] at this
    exact h2 this

theorem loop_char {E : TokEnv} (hs : E.max < 2 ^ 64) (ic : Bool) (sub : List Nat → M Token) (n : Nat) (t : Token)
    {w rest : List Nat} {c : Nat} (h : Chr E.max w c rest) (hd : NoDash rest) (hr : rest ≠ []) :
    charsetLoop E ic sub (n + 1) t (w ++ rest) = after E ic sub n (addRange E ic (c, c) t) rest := by
  cases rest with
  | nil => exact absurd rfl hr
  | cons d rest =>
    have hc := noDash_cond hd
    cases h with
    | esc w _ _ h =>
      simp only [List.cons_append, charsetLoop, if_true, bind, Except.bind]
      rw [escapeSeq_char hs h]
      simp only [if_neg hc, Bool.false_eq_true, if_false]
      rfl
    | self c _ h1 h2 =>
      simp only [List.cons_append, List.nil_append, charsetLoop, bind, Except.bind]
      rw [if_neg h1, if_neg (by simpa using h2)]
      simp only [if_neg hc, Bool.false_eq_true, if_false]
      rfl

theorem range_end {E : TokEnv} (hs : E.max < 2 ^ 64) (ic : Bool) (t : Token) {w rest : List Nat} {x y : Nat}
    (h : Chr E.max w y rest) (hr : rest ≠ []) (hxy : x ≤ y) :
    charsetRange E ic false x t (w ++ rest) = .ok (addRange E ic (x, y) t, rest) := by
  unfold charsetRange
  cases h with
  | esc w _ _ h =>
    simp only [Bool.false_eq_true, if_false, List.cons_append, if_true, bind, Except.bind]
    rw [escapeSeq_char hs h]
    simp only
    rw [if_neg hr, if_neg (by omega)]
  | self y _ h1 h2 =>
    simp only [Bool.false_eq_true, if_false, List.cons_append, List.nil_append, bind, Except.bind]
    rw [if_neg h1, if_neg h2]
    rw [if_neg hr, if_neg (by omega)]

theorem chr_ne {max : Nat} {w rest : List Nat} {c : Nat} (h : Chr max w c rest) : w ≠ [] := by
  cases h <;> simp

theorem loop_range {E : TokEnv} (hs : E.max < 2 ^ 64) (ic : Bool) (sub : List Nat → M Token) (n : Nat) (t : Token)
    {v w rest : List Nat} {x y : Nat} (h1 : Chr E.max v x (45 :: w ++ rest)) (h2 : Chr E.max w y rest)
    (h3 : w.head? ≠ some 93) (hxy : x ≤ y) (hr : rest ≠ []) :
    charsetLoop E ic sub (n + 1) t (v ++ 45 :: w ++ rest) = after E ic sub n (addRange E ic (x, y) t) rest := by
  have hend := range_end hs ic t h2 hr hxy
  have hw := chr_ne h2
  have hd : (w ++ rest).headD 0 ≠ 93 := by
    cases w with
    | nil => exact absurd rfl hw
    | cons a w => simpa using h3
  have fin : (match Except.ok (addRange E ic (x, y) t, rest) with
      | Except.error e => (Except.error e : M (Token × List Nat))
      | Except.ok (t, cs) => match cs with
        | [] => .error (.ub "charset at the end")
        | c :: cs' => if c ≠ 93 then charsetLoop E ic sub n t (c :: cs') else .ok (t, cs')) =
      after E ic sub n (addRange E ic (x, y) t) rest := by
    cases rest <;> rfl
  rw [List.append_assoc, List.cons_append]
  cases h1 with
  | esc v _ _ h =>
    simp only [List.cons_append, charsetLoop, if_true, bind, Except.bind]
    rw [show v ++ 45 :: (w ++ rest) = v ++ (45 :: w ++ rest) from rfl, escapeSeq_char hs h]
    simp only [List.cons_append]
    rw [if_pos ⟨trivial, hd⟩, hend]
    cases rest with
    | nil => rfl
    | cons a rest => rfl
  | self x _ g1 g2 =>
    simp only [List.cons_append, List.nil_append, charsetLoop, bind, Except.bind]
    rw [if_neg g1, if_neg (by simpa using g2)]
    rw [if_pos ⟨trivial, hd⟩, hend]
    cases rest with
    | nil => rfl
    | cons a rest => rfl

theorem loop_text {E : TokEnv} (ic : Bool) (sub : List Nat → M Token) (n : Nat) (t : Token) {w rest str : List Nat}
    (h : escapeSeq E (w ++ rest) = .ok (.text str, rest)) (hd : NoDash rest) (hr : rest ≠ []) :
    charsetLoop E ic sub (n + 1) t (92 :: w ++ rest) =
      match sub str.tail with
      | .error e => .error e
      | .ok temp => after E ic sub n (t.insertToken temp) rest := by
  cases rest with
  | nil => exact absurd rfl hr
  | cons d rest =>
    have hc := noDash_cond hd
    simp only [List.cons_append, charsetLoop, if_true, bind, Except.bind]
    rw [h]
    simp only
    cases sub str.tail with
    | error e => rfl
    | ok temp =>
      simp only [if_neg hc, if_true]
      rfl

theorem loop_posix {E : TokEnv} (ic : Bool) (sub : List Nat → M Token) (n : Nat) (t : Token) {w rest str : List Nat} {neg : Bool}
    (h : posixClass E (w ++ rest) = .ok (str, neg, rest)) (hd : NoDash rest) (hr : rest ≠ []) :
    charsetLoop E ic sub (n + 1) t (91 :: 58 :: w ++ rest) =
      match sub str.tail with
      | .error e => .error e
      | .ok temp => after E ic sub n (t.insertToken (if neg then temp.negate E.max else temp)) rest := by
  cases rest with
  | nil => exact absurd rfl hr
  | cons d rest =>
    have hc := noDash_cond hd
    have : charsetLoop E ic sub (n + 1) t (91 :: 58 :: w ++ d :: rest) = (do
      let (str, neg, cs) ← posixClass E (w ++ d :: rest)
      let temp ← sub str.tail
      let t := t.insertToken (if neg then temp.negate E.max else temp)
      match cs with
      | [] => throw_ "Unexpected end of regex (missing ']')"
      | c :: cs => do
        let (t, cs) ←
          if c = 45 ∧ cs.headD 0 ≠ 93 then charsetRange E ic true 0 t cs
          else .ok (t, c :: cs)
        match cs with
        | [] => .error (.ub "charset at the end")
        | c :: cs' => if c ≠ 93 then charsetLoop E ic sub n t (c :: cs') else .ok (t, cs')) := by
      simp only [List.cons_append, charsetLoop, bind, Except.bind, List.head?_cons, List.tail_cons]
      rw [if_neg (by decide), if_pos (by simp)]
      cases posixClass E (w ++ d :: rest) with
      | error e => rfl
      | ok a =>
        obtain ⟨str, neg, cs⟩ := a
        simp only
        cases sub str.tail with
        | error e => rfl
        | ok temp => rfl
    rw [this, h]
    simp only [bind, Except.bind]
    cases sub str.tail with
    | error e => rfl
    | ok temp =>
      simp only [if_neg hc]
      rfl

/-! ### Plain texts: characters and ranges only -/

/-- An item without classes. -/
inductive PlainItem (max : Nat) : List Nat → Nat × Nat → List Nat → Prop
  | char (w c rest) : Chr max w c rest → NoDash rest → PlainItem max w (c, c) rest
  | range (v x w y rest) : Chr max v x (45 :: w ++ rest) → Chr max w y rest → w.head? ≠ some 93 → x ≤ y →
      PlainItem max (v ++ 45 :: w) (x, y) rest

/-- A text of such items, with the `]`. -/
inductive Plain (max : Nat) : List Nat → List (Nat × Nat) → Prop
  | last (w r) : PlainItem max w r [93] → Plain max (w ++ [93]) [r]
  | more (w r w' rs) : PlainItem max w r w' → w'.head? ≠ some 93 → Plain max w' rs → Plain max (w ++ w') (r :: rs)

theorem plain_ne {max : Nat} {w : List Nat} {rs : List (Nat × Nat)} (h : Plain max w rs) : w ≠ [] := by
  induction h with
  | last => simp
  | more w r w' rs _ _ _ ih => simp [ih]

theorem plainItem_append {max : Nat} {w rest : List Nat} {r : Nat × Nat} (h : PlainItem max w r rest) (hr : rest ≠ []) (out : List Nat) :
    PlainItem max w r (rest ++ out) := by
  cases h with
  | char w c _ h1 h2 => exact .char w c _ (chr_append h1 hr out) (noDash_append h2 hr out)
  | range v x w y _ h1 h2 h3 h4 =>
    refine .range v x w y _ ?_ (chr_append h2 hr out) h3 h4
    have := chr_append h1 (by simp) out
    simpa using this

theorem plainItem_le {E : TokEnv} (hE : TokEnvOk E) {w rest : List Nat} {r : Nat × Nat} (h : PlainItem E.max w r rest)
    (ht : ∀ d ∈ w, d ≤ E.max) : r.1 ≤ r.2 ∧ r.2 ≤ E.max := by
  cases h with
  | char w c _ h1 h2 => exact ⟨Nat.le_refl _, chr_le hE h1 ht⟩
  | range v x w y _ h1 h2 h3 h4 => exact ⟨h4, chr_le hE h2 fun d hd => ht d (by simp [hd])⟩

theorem loop_plainItem {E : TokEnv} (hs : E.max < 2 ^ 64) (ic : Bool) (sub : List Nat → M Token) (n : Nat) (t : Token)
    {w rest : List Nat} {r : Nat × Nat} (h : PlainItem E.max w r rest) (hr : rest ≠ []) :
    charsetLoop E ic sub (n + 1) t (w ++ rest) = after E ic sub n (addRange E ic r t) rest := by
  cases h with
  | char w c _ h1 h2 => exact loop_char hs ic sub n t h1 h2 hr
  | range v x w y _ h1 h2 h3 h4 => exact loop_range hs ic sub n t h1 h2 h3 h4 hr

/-- `t` has the members `S`, all of them characters. -/
structure SetIs (max : Nat) (t : Token) (S : Nat → Prop) : Prop where
  cs : Cs max t
  mem : ∀ c, Mem c t ↔ S c

theorem closed_or {E : TokEnv} {ic : Bool} {S T : Nat → Prop} (x : Nat) :
    Closed E ic (fun c => S c ∨ T c) x ↔ Closed E ic S x ∨ Closed E ic T x := by
  unfold Closed
  constructor
  · rintro ((h | h) | ⟨h1, c, h | h, h2⟩)
    · exact .inl (.inl h)
    · exact .inr (.inl h)
    · exact .inl (.inr ⟨h1, c, h, h2⟩)
    · exact .inr (.inr ⟨h1, c, h, h2⟩)
  · rintro ((h | ⟨h1, c, h, h2⟩) | (h | ⟨h1, c, h, h2⟩))
    · exact .inl (.inl h)
    · exact .inr ⟨h1, c, .inl h, h2⟩
    · exact .inl (.inr h)
    · exact .inr ⟨h1, c, .inr h, h2⟩

theorem closed_congr {E : TokEnv} {ic : Bool} {S T : Nat → Prop} (h : ∀ c, S c ↔ T c) (x : Nat) :
    Closed E ic S x ↔ Closed E ic T x := by
  unfold Closed
  simp only [h]

/-- In one of the ranges. -/
def InRanges (rs : List (Nat × Nat)) (c : Nat) : Prop := ∃ r ∈ rs, r.1 ≤ c ∧ c ≤ r.2

theorem plain_loop {E : TokEnv} (hE : TokEnvOk E) (hC : CharsOk E) (ic : Bool) (sub : List Nat → M Token) {w : List Nat}
    {rs : List (Nat × Nat)} (h : Plain E.max w rs) : ∀ (out : List Nat) (n : Nat) (t : Token), (∀ d ∈ w, d ≤ E.max) → w.length < n → Cs E.max t →
    ∃ t', charsetLoop E ic sub n t (w ++ out) = .ok (t', out) ∧
      SetIs E.max t' (fun c => Mem c t ∨ Closed E ic (InRanges rs) c) := by
  induction h with
  | last w r h =>
    intro out n t ht hn hcs
    obtain ⟨n, rfl⟩ : ∃ m, n = m + 1 := ⟨n - 1, by omega⟩
    obtain ⟨h1, h2⟩ := plainItem_le hE h fun d hd => ht d (by simp [hd])
    rw [List.append_assoc, loop_plainItem hC.small ic sub n t (plainItem_append h (by simp) out) (by simp)]
    refine ⟨_, rfl, addRange_cs hE ic h1 h2 hcs, fun c => ?_⟩
    rw [mem_addRange hE hC ic h1 h2 hcs]
    refine or_congr_right (closed_congr (fun c => ?_) c)
    simp [InRanges]
  | more w r w' rs h hh _ ih =>
    intro out n t ht hn hcs
    obtain ⟨n, rfl⟩ : ∃ m, n = m + 1 := ⟨n - 1, by omega⟩
    have hw' : w' ≠ [] := by rename_i h'; exact plain_ne h'
    obtain ⟨h1, h2⟩ := plainItem_le hE h fun d hd => ht d (by simp [hd])
    have hw : w ≠ [] := by
      cases h with
      | char w c _ h1 h2 => exact chr_ne h1
      | range v x w y _ h1 h2 h3 h4 => simp
    have hlen : 0 < w.length := List.length_pos_iff.2 hw
    rw [List.append_assoc, loop_plainItem hC.small ic sub n t (plainItem_append h hw' out) (by simp [hw'])]
    obtain ⟨t', g1, g2⟩ := ih out n (addRange E ic r t) (fun d hd => ht d (by simp [hd])) (by simp at hn; omega) (addRange_cs hE ic h1 h2 hcs)
    have : after E ic sub n (addRange E ic r t) (w' ++ out) = charsetLoop E ic sub n (addRange E ic r t) (w' ++ out) := by
      cases w' with
      | nil => exact absurd rfl hw'
      | cons a w' => exact if_pos (by simpa using hh)
    rw [this]
    refine ⟨t', g1, g2.cs, fun c => ?_⟩
    rw [g2.mem, mem_addRange hE hC ic h1 h2 hcs, or_assoc, ← closed_or]
    refine or_congr_right (closed_congr (fun c => ?_) c)
    simp [InRanges]

/-- Such a text in brackets. -/
theorem plain_charset {E : TokEnv} (hE : TokEnvOk E) (hC : CharsOk E) (ic : Bool) {w : List Nat} {rs : List (Nat × Nat)}
    (h : Plain E.max w rs) (ht : ∀ d ∈ w, d ≤ E.max) (hne : w.head? ≠ some 94) (hex : ∃ c, InRanges rs c) (d : Nat) (out : List Nat) :
    ∃ t, charset E ic (d + 1) (w ++ out) = .ok (t, out) ∧ SetIs E.max t (Closed E ic (InRanges rs)) := by
  obtain ⟨t, h1, h2⟩ := plain_loop hE hC ic (fun str => do let (t, _) ← charset E ic d str; .ok t) h out ((w ++ out).length + 1) [] ht
    (by simp; omega) Cs.nil
  have hm : ∀ c, Mem c t ↔ Closed E ic (InRanges rs) c := fun c => by rw [h2.mem]; simp [Token.mem_nil]
  have htne : t ≠ [] := by
    obtain ⟨c, hc⟩ := hex
    exact Cs.ne_of_mem ((hm c).2 (.inl hc))
  refine ⟨t, ?_, h2.cs, hm⟩
  cases w with
  | nil => exact absurd rfl (plain_ne h)
  | cons a w =>
    simp only [List.head?_cons, ne_eq, Option.some.injEq] at hne
    rw [charset.eq_def]
    simp only [List.cons_append, if_neg hne, bind, Except.bind] at h1 ⊢
    rw [h1]
    simp only
    rw [if_neg htne]

/-- The same, negated. -/
theorem plain_charset_neg {E : TokEnv} (hE : TokEnvOk E) (hC : CharsOk E) (ic : Bool) {w : List Nat} {rs : List (Nat × Nat)}
    (h : Plain E.max w rs) (ht : ∀ d ∈ w, d ≤ E.max) (hex : ∃ c, Compl E (Closed E ic (InRanges rs)) c) (d : Nat) (out : List Nat) :
    ∃ t, charset E ic (d + 1) (94 :: w ++ out) = .ok (t, out) ∧ SetIs E.max t (Compl E (Closed E ic (InRanges rs))) := by
  obtain ⟨t, h1, h2⟩ := plain_loop hE hC ic (fun str => do let (t, _) ← charset E ic d str; .ok t) h out ((w ++ out).length + 1) [] ht
    (by simp; omega) Cs.nil
  obtain ⟨g1, g2⟩ := Token.negate_spec E.max t h2.cs.normal h2.cs.within
  have hm : ∀ c, Mem c (t.negate E.max) ↔ Compl E (Closed E ic (InRanges rs)) c := fun c => by
    rw [g2, h2.mem]; simp [Token.mem_nil, Compl]
  have htne : t.negate E.max ≠ [] := by
    obtain ⟨c, hc⟩ := hex
    exact Cs.ne_of_mem ((hm c).2 hc)
  refine ⟨t.negate E.max, ?_, h2.cs.negate, hm⟩
  have hw : w ++ out ≠ [] := by
    cases w with
    | nil => exact absurd rfl (plain_ne h)
    | cons a w => simp
  rw [charset.eq_def]
  simp only [List.cons_append, if_true, if_neg hw, bind, Except.bind] at h1 ⊢
  rw [h1]
  simp only
  rw [if_neg htne]

end Lexertl.Reading

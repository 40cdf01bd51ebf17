import Verif.Proofs.Brackets

/-
Bracketed charsets: the induction over `Brackets`.
-/
namespace Lexertl.Reading
open Spec

/-! ### Fixed texts -/

theorem plain_self {max c : Nat} {w : List Nat} {rs : List (Nat × Nat)} (h1 : c ≠ 92) (h2 : ¬ (c = 91 ∧ w.head? = some 58))
    (h3 : NoDash w) (h4 : w.head? ≠ some 93) (h : Plain max w rs) : Plain max (c :: w) ((c, c) :: rs) :=
  .more [c] (c, c) w rs (.char [c] c w (.self c w h1 h2) h3) h4 h

theorem plain_selfLast {max c : Nat} (h1 : c ≠ 92) : Plain max [c, 93] [(c, c)] :=
  .last [c] (c, c) (.char [c] c [93] (.self c _ h1 (by simp)) (by decide))

theorem plain_range {max a b : Nat} {w : List Nat} {rs : List (Nat × Nat)} (h1 : a ≠ 92) (h2 : a ≠ 91) (h3 : b ≠ 92)
    (h4 : b ≠ 93) (h5 : b ≠ 91) (h6 : a ≤ b) (h7 : w.head? ≠ some 93) (h : Plain max w rs) :
    Plain max (a :: 45 :: b :: w) ((a, b) :: rs) :=
  .more [a, 45, b] (a, b) w rs (.range [a] a [b] b w (.self a _ h1 (by simp)) (.self b w h3 (by simp [h5])) (by simpa using h4) h6) h7 h

theorem plain_rangeLast {max a b : Nat} (h1 : a ≠ 92) (h2 : a ≠ 91) (h3 : b ≠ 92) (h4 : b ≠ 93) (h5 : b ≠ 91) (h6 : a ≤ b) :
    Plain max [a, 45, b, 93] [(a, b)] :=
  .last [a, 45, b] (a, b) (.range [a] a [b] b [93] (.self a _ h1 (by simp)) (.self b _ h3 (by simp [h5])) (by simpa using h4) h6)

theorem plain_esc {max c : Nat} {w : List Nat} {rs : List (Nat × Nat)} (h1 : c ∈ [45, 92, 93]) (h3 : NoDash w)
    (h4 : w.head? ≠ some 93) (h : Plain max w rs) : Plain max (92 :: c :: w) ((c, c) :: rs) := by
  refine .more [92, c] (c, c) w rs (.char [92, c] c w (.esc [c] c w (.self c w ?_ ?_ ?_)) h3) h4 h <;>
  · simp only [List.mem_cons, List.not_mem_nil, or_false] at h1
    rcases h1 with rfl | rfl | rfl <;> decide

theorem plain_digit (max : Nat) : Plain max (chars "0-9]") [(48, 57)] :=
  plain_rangeLast (by decide) (by decide) (by decide) (by decide) (by decide) (by decide)

theorem plain_space (max : Nat) : Plain max [32, 9, 10, 13, 12, 11, 93] [(32, 32), (9, 9), (10, 10), (13, 13), (12, 12), (11, 11)] := by
  repeat refine plain_self (by decide) (by decide) (by decide) (by decide) ?_
  exact plain_selfLast (by decide)

theorem plain_word (max : Nat) : Plain max (chars "_0-9A-Za-z]") [(95, 95), (48, 57), (65, 90), (97, 122)] := by
  refine plain_self (by decide) (by decide) (by decide) (by decide) ?_
  repeat refine plain_range (by decide) (by decide) (by decide) (by decide) (by decide) (by decide) (by decide) ?_
  exact plain_rangeLast (by decide) (by decide) (by decide) (by decide) (by decide) (by decide)

theorem plain_xdigit (max : Nat) : Plain max (chars "0-9A-Fa-f]") [(48, 57), (65, 70), (97, 102)] := by
  repeat refine plain_range (by decide) (by decide) (by decide) (by decide) (by decide) (by decide) (by decide) ?_
  exact plain_rangeLast (by decide) (by decide) (by decide) (by decide) (by decide) (by decide)

def punctRanges : List (Nat × Nat) :=
  (chars "!\"#$%&'()*+,-./:;<=>?@[\\]^_`{|}~").map fun c => (c, c)

theorem plain_punct (max : Nat) : Plain max (chars "!\"#$%&'()*+,\\-./:;<=>?@[\\\\\\]^_`{|}~]") punctRanges := by
  repeat first
    | exact plain_selfLast (by decide)
    | refine plain_self (by decide) (by decide) (by decide) (by decide) ?_
    | refine plain_esc (by decide) (by decide) (by decide) ?_

theorem plain_list {max : Nat} : ∀ (cs : List Nat), cs ≠ [] → (∀ c ∈ cs, c ∉ [45, 91, 92, 93, 94]) →
    Plain max (cs ++ [93]) (cs.map fun c => (c, c))
  | [], h, _ => absurd rfl h
  | [c], _, hc => by
    have := hc c (by simp)
    simp only [List.mem_cons, List.not_mem_nil, or_false, not_or] at this
    exact plain_selfLast (by omega)
  | c :: d :: cs, _, hc => by
    have h1 := hc c (by simp)
    have h2 := hc d (by simp)
    simp only [List.mem_cons, List.not_mem_nil, or_false, not_or] at h1 h2
    refine plain_self (by omega) (by omega) ?_ ?_ (plain_list (d :: cs) (by simp) fun x hx => hc x (by simp [hx]))
    · intro h; simp at h; omega
    · simp; omega

/-- The same sets. -/
theorem SetIs.congr {max : Nat} {t : Token} {S T : Nat → Prop} (h : SetIs max t S) (hST : ∀ c, S c ↔ T c) : SetIs max t T :=
  ⟨h.cs, fun c => (h.mem c).trans (hST c)⟩

/-- The texts of the shorthands. -/
def shortText (c : Nat) : List Nat :=
  if c = 100 then chars "[0-9]" else if c = 68 then chars "[^0-9]" else if c = 115 then [91, 32, 9, 10, 13, 12, 11, 93]
  else if c = 83 then [91, 94, 32, 9, 10, 13, 12, 11, 93] else if c = 119 then chars "[_0-9A-Za-z]" else chars "[^_0-9A-Za-z]"

theorem shortcut_seq {E : TokEnv} {ic : Bool} {c : Nat} {S : Nat → Prop} (h : Shorthand E ic c S) (rest : List Nat) :
    escapeSeq E (c :: rest) = .ok (.text (shortText c), rest) := by
  cases h <;> rfl

theorem digit_iff (c : Nat) : InRanges [(48, 57)] c ↔ Digit c := by simp [InRanges, Digit]
theorem space_iff (c : Nat) : InRanges [(32, 32), (9, 9), (10, 10), (13, 13), (12, 12), (11, 11)] c ↔ IsSpace c := by
  simp only [InRanges, IsSpace, List.mem_cons, List.not_mem_nil, or_false, exists_eq_or_imp, exists_eq_left]
  omega
theorem word_iff (c : Nat) : InRanges [(95, 95), (48, 57), (65, 90), (97, 122)] c ↔ WordChar c := by
  simp only [InRanges, WordChar, Digit, List.mem_cons, List.not_mem_nil, or_false, exists_eq_or_imp, exists_eq_left]
  omega
theorem xdigit_iff (c : Nat) : InRanges [(48, 57), (65, 70), (97, 102)] c ↔ IsHexDigit c := by
  simp only [InRanges, IsHexDigit, List.mem_cons, List.not_mem_nil, or_false, exists_eq_or_imp, exists_eq_left]
theorem punct_iff (c : Nat) : InRanges punctRanges c ↔
    ((33 ≤ c ∧ c ≤ 47) ∨ (58 ≤ c ∧ c ≤ 64) ∨ (91 ≤ c ∧ c ≤ 96) ∨ (123 ≤ c ∧ c ≤ 126)) := by
  have h1 : ∀ r ∈ punctRanges, r.1 = r.2 ∧ ((33 ≤ r.1 ∧ r.1 ≤ 47) ∨ (58 ≤ r.1 ∧ r.1 ≤ 64) ∨ (91 ≤ r.1 ∧ r.1 ≤ 96) ∨ (123 ≤ r.1 ∧ r.1 ≤ 126)) := by
    decide
  have h2 : ∀ c < 128, ((33 ≤ c ∧ c ≤ 47) ∨ (58 ≤ c ∧ c ≤ 64) ∨ (91 ≤ c ∧ c ≤ 96) ∨ (123 ≤ c ∧ c ≤ 126)) → (c, c) ∈ punctRanges := by
    decide
  constructor
  · rintro ⟨r, hr, h3⟩
    have := h1 r hr
    have e : c = r.1 := by omega
    rw [e]; exact this.2
  · intro h
    exact ⟨(c, c), h2 c (by omega) h, Nat.le_refl _, Nat.le_refl _⟩

theorem compl_congr {E : TokEnv} {S T : Nat → Prop} (h : ∀ c, S c ↔ T c) (x : Nat) : Compl E S x ↔ Compl E T x := by
  unfold Compl; rw [h]

/-- What a shorthand stands for. -/
theorem short_charset {E : TokEnv} (hE : TokEnvOk E) (hC : CharsOk E) {ic : Bool} {c : Nat} {S : Nat → Prop}
    (h : Shorthand E ic c S) (hex : ∃ c, S c) (d : Nat) :
    ∃ t, charset E ic (d + 1) (shortText c).tail = .ok (t, []) ∧ SetIs E.max t S := by
  have hb := hE.big
  have key : ∀ {w rs T}, Plain E.max w rs → (∀ d ∈ w, d ≤ 127) → w.head? ≠ some 94 → (∀ c, InRanges rs c ↔ T c) → (∃ c, T c) →
      ∃ t, charset E ic (d + 1) w = .ok (t, []) ∧ SetIs E.max t (Closed E ic T) := by
    intro w rs T hp hw hh hT hex
    obtain ⟨t, h1, h2⟩ := plain_charset hE hC ic hp (fun d hd => Nat.le_trans (hw d hd) hb) hh (by simpa only [hT] using hex) d []
    exact ⟨t, by simpa using h1, h2.congr fun c => closed_congr hT c⟩
  have keyN : ∀ {w rs T}, Plain E.max w rs → (∀ d ∈ w, d ≤ 127) → (∀ c, InRanges rs c ↔ T c) → (∃ c, Compl E (Closed E ic T) c) →
      ∃ t, charset E ic (d + 1) (94 :: w) = .ok (t, []) ∧ SetIs E.max t (Compl E (Closed E ic T)) := by
    intro w rs T hp hw hT hex
    have e : ∀ c, Compl E (Closed E ic (InRanges rs)) c ↔ Compl E (Closed E ic T) c := fun c => compl_congr (fun x => closed_congr hT x) c
    obtain ⟨t, h1, h2⟩ := plain_charset_neg hE hC ic hp (fun d hd => Nat.le_trans (hw d hd) hb) (by simpa only [e] using hex) d []
    exact ⟨t, by simpa using h1, h2.congr e⟩
  cases h with
  | digit => exact key (plain_digit _) (by decide) (by decide) digit_iff ⟨48, by decide⟩
  | notDigit => exact keyN (plain_digit _) (by decide) digit_iff hex
  | space => exact key (plain_space _) (by decide) (by decide) space_iff ⟨32, by decide⟩
  | notSpace => exact keyN (plain_space _) (by decide) space_iff hex
  | word => exact key (plain_word _) (by decide) (by decide) word_iff ⟨95, by decide⟩
  | notWord => exact keyN (plain_word _) (by decide) word_iff hex

/-! ### POSIX classes -/

theorem stripPrefix_append : ∀ (p cs : List Nat), stripPrefix p (p ++ cs) = some cs
  | [], _ => rfl
  | p :: ps, cs => by simp only [List.cons_append, stripPrefix, if_true]; exact stripPrefix_append ps cs

/-- The text a class of single byte characters stands for. -/
theorem posixByte_name {E : TokEnv} (hE : TokEnvOk E) (hC : CharsOk E) {ic : Bool} (hsz : E.size = 1) {name : List Nat} {S : Nat → Prop}
    (h : PosixByte E name S) (hex : ∃ c, S c) : ∃ body, name ≠ [] ∧ name.head? ≠ some 94 ∧
      (∀ rest, posixName (posixTexts E) (name ++ rest) = some (91 :: body, rest)) ∧
      ∀ d, ∃ t, charset E ic (d + 1) body = .ok (t, []) ∧ SetIs E.max t (Closed E ic S) := by
  have hb := hE.big
  have hm := hE.byte hsz
  have key : ∀ {w rs}, Plain E.max w rs → (∀ d ∈ w, d ≤ E.max) → w.head? ≠ some 94 → (∀ c, InRanges rs c ↔ S c) →
      ∀ d, ∃ t, charset E ic (d + 1) w = .ok (t, []) ∧ SetIs E.max t (Closed E ic S) := by
    intro w rs hp hw hh hT d
    obtain ⟨t, h1, h2⟩ := plain_charset hE hC ic hp hw hh (by simpa only [hT] using hex) d []
    exact ⟨t, by simpa using h1, h2.congr fun c => closed_congr hT c⟩
  have k127 : ∀ {w : List Nat}, (∀ d ∈ w, d ≤ 127) → ∀ d ∈ w, d ≤ E.max := fun hw d hd => Nat.le_trans (hw d hd) hb
  have cls : ∀ {is : Nat → Bool}, (∀ c, is c = true → c ∉ [45, 91, 92, 93, 94]) → S = (fun c => is c = true ∧ 1 ≤ c ∧ c ≤ 255) →
      ∀ d, ∃ t, charset E ic (d + 1) (((List.range' 1 255).filter is) ++ [93]) = .ok (t, []) ∧ SetIs E.max t (Closed E ic S) := by
    intro is his hS
    subst hS
    have mem : ∀ c, c ∈ (List.range' 1 255).filter is ↔ is c = true ∧ 1 ≤ c ∧ c ≤ 255 := by
      intro c; rw [List.mem_filter, List.mem_range'_1, and_comm]; refine and_congr_right fun _ => ?_; omega
    have hne : (List.range' 1 255).filter is ≠ [] := by
      obtain ⟨c, hc⟩ := hex
      intro h0
      have := (mem c).2 hc
      rw [h0] at this; cases this
    refine key (plain_list _ hne fun c hc => his c ((mem c).1 hc).1) ?_ ?_ ?_
    · intro d hd
      rw [List.mem_append, mem] at hd
      rcases hd with hd | hd
      · omega
      · simp at hd; omega
    · cases hf : (List.range' 1 255).filter is with
      | nil => exact absurd hf hne
      | cons a l =>
        have := his a ((mem a).1 (by rw [hf]; simp)).1
        simp only [List.mem_cons, List.not_mem_nil, or_false, not_or] at this
        simp; omega
    · intro c
      refine Iff.trans ?_ (mem c)
      simp only [InRanges, List.mem_map]
      constructor
      · rintro ⟨_, ⟨a, ha, rfl⟩, h1, h2⟩
        rwa [show c = a by dsimp only at h1 h2; omega]
      · intro hc; exact ⟨(c, c), ⟨c, hc, rfl⟩, Nat.le_refl _, Nat.le_refl _⟩
  have cl := hC.classes
  cases h with
  | alnum => exact ⟨_, by decide, by decide, fun rest => by simp only [posixTexts, hsz]; rfl, cls (fun c hc => cl c (by simp [hc])) rfl⟩
  | alpha => exact ⟨_, by decide, by decide, fun rest => by simp only [posixTexts, hsz]; rfl, cls (fun c hc => cl c (by simp [hc])) rfl⟩
  | blank =>
    refine ⟨[32, 9, 93], by decide, by decide, fun rest => by simp only [posixTexts, hsz]; rfl,
      key (plain_self (by decide) (by decide) (by decide) (by decide) (plain_selfLast (by decide))) (k127 (by decide)) (by decide) ?_⟩
    intro c; simp [InRanges]; omega
  | cntrl =>
    refine ⟨_, by decide, by decide, fun rest => by simp only [posixTexts, hsz]; rfl,
      key (w := [92, 120, 48, 48, 45, 31, 127, 93]) (rs := [(0, 31), (127, 127)]) ?_ (k127 (by decide)) (by decide) ?_⟩
    · refine .more [92, 120, 48, 48, 45, 31] (0, 31) [127, 93] _ ?_ (by decide) (plain_selfLast (by decide))
      exact .range [92, 120, 48, 48] 0 [31] 31 [127, 93]
        (.esc [120, 48, 48] 0 _ (.hex [48, 48] _ (by decide) (by decide) (by decide) (Nat.zero_le _))) (.self 31 _ (by decide) (by decide)) (by decide) (by decide)
    · intro c; simp [InRanges]; omega
  | digit => exact ⟨_, by decide, by decide, fun rest => by simp only [posixTexts, hsz]; rfl, key (plain_digit _) (k127 (by decide)) (by decide) digit_iff⟩
  | graph =>
    refine ⟨[33, 45, 126, 93], by decide, by decide, fun rest => by simp only [posixTexts, hsz]; rfl,
      key (plain_rangeLast (by decide) (by decide) (by decide) (by decide) (by decide) (by decide)) (k127 (by decide)) (by decide) ?_⟩
    intro c; simp [InRanges]
  | lower => exact ⟨_, by decide, by decide, fun rest => by simp only [posixTexts, hsz]; rfl, cls (fun c hc => cl c (by simp [hc])) rfl⟩
  | print =>
    refine ⟨[32, 45, 126, 93], by decide, by decide, fun rest => by simp only [posixTexts, hsz]; rfl,
      key (plain_rangeLast (by decide) (by decide) (by decide) (by decide) (by decide) (by decide)) (k127 (by decide)) (by decide) ?_⟩
    intro c; simp [InRanges]
  | punct => exact ⟨_, by decide, by decide, fun rest => by simp only [posixTexts, hsz]; rfl, key (plain_punct _) (k127 (by decide)) (by decide) punct_iff⟩
  | space =>
    refine ⟨[32, 9, 13, 10, 11, 12, 93], by decide, by decide, fun rest => by simp only [posixTexts, hsz]; rfl,
      key (rs := [(32, 32), (9, 9), (13, 13), (10, 10), (11, 11), (12, 12)]) ?_ (k127 (by decide)) (by decide) ?_⟩
    · repeat refine plain_self (by decide) (by decide) (by decide) (by decide) ?_
      exact plain_selfLast (by decide)
    · intro c
      simp only [InRanges, IsSpace, List.mem_cons, List.not_mem_nil, or_false, exists_eq_or_imp, exists_eq_left]
      omega
  | upper => exact ⟨_, by decide, by decide, fun rest => by simp only [posixTexts, hsz]; rfl, cls (fun c hc => cl c (by simp [hc])) rfl⟩
  | xdigit => exact ⟨_, by decide, by decide, fun rest => by simp only [posixTexts, hsz]; rfl, key (plain_xdigit _) (k127 (by decide)) (by decide) xdigit_iff⟩

theorem posixWide_name {E : TokEnv} (hsz : E.size ≠ 1) {name body : List Nat} (h : (name, body) ∈ posixWide) :
    name ≠ [] ∧ name.head? ≠ some 94 ∧ (∀ d ∈ body, d ≤ 127) ∧ ∀ rest, posixName (posixTexts E) (name ++ rest) = some (91 :: body, rest) := by
  have h1 : ∀ p ∈ posixWide, p.1 ≠ [] ∧ p.1.head? ≠ some 94 ∧ ∀ d ∈ p.2, d ≤ 127 := by decide
  refine ⟨(h1 _ h).1, (h1 _ h).2.1, (h1 _ h).2.2, fun rest => ?_⟩
  simp only [posixWide, List.mem_cons, List.not_mem_nil, or_false, Prod.mk.injEq] at h
  rcases h with ⟨rfl, rfl⟩ | ⟨rfl, rfl⟩ | ⟨rfl, rfl⟩ | ⟨rfl, rfl⟩ | ⟨rfl, rfl⟩ | ⟨rfl, rfl⟩ | ⟨rfl, rfl⟩ | ⟨rfl, rfl⟩ | ⟨rfl, rfl⟩ |
    ⟨rfl, rfl⟩ | ⟨rfl, rfl⟩ | ⟨rfl, rfl⟩ <;> simp only [posixTexts, hsz] <;> rfl

theorem posixClass_ok {E : TokEnv} {name body rest : List Nat} (h1 : name ≠ []) (h2 : name.head? ≠ some 94)
    (h : ∀ rest, posixName (posixTexts E) (name ++ rest) = some (91 :: body, rest)) :
    posixClass E (name ++ [58, 93] ++ rest) = .ok (91 :: body, false, rest) ∧
    posixClass E (94 :: name ++ [58, 93] ++ rest) = .ok (91 :: body, true, rest) := by
  cases name with
  | nil => exact absurd rfl h1
  | cons a name =>
    have ha : a ≠ 94 := by simpa using h2
    constructor
    · unfold posixClass
      simp only [List.cons_append]
      split
      · rename_i heq
        injection heq with h3 _
        exact absurd h3 ha
      · rw [if_neg (by simp), ← List.cons_append, ← List.cons_append, List.append_assoc, h]
        rfl
    · unfold posixClass
      simp only [List.cons_append]
      rw [if_neg (by simp), ← List.cons_append, ← List.cons_append, List.append_assoc, h]
      rfl

/-! ### The induction -/

/-- How deep charsets stand for charsets is not enough, or the result is `Q`. -/
def Fuel {α : Type} (Q : α → Prop) (x : M α) : Prop := x = .error .fuel ∨ ∃ a, x = .ok a ∧ Q a

/-- Reading the charset a name stands for. -/
def sub (E : TokEnv) (ic : Bool) (d : Nat) (str : List Nat) : M Token := do let (t, _) ← charset E ic d str; .ok t

theorem unicode_seq {E : TokEnv} {name body rest : List Nat} (h1 : name ≠ []) (h2 : 125 ∉ name) (h : E.unicode name = some (91 :: body)) :
    escapeSeq E (112 :: 123 :: name ++ [125] ++ rest) = .ok (.text (91 :: body), rest) := by
  cases name with
  | nil => exact absurd rfl h1
  | cons a name =>
    have hb : ∀ (n : List Nat), 125 ∉ n → toBrace (n ++ [125] ++ rest) = (n, 125 :: rest) := by
      intro n
      induction n with
      | nil => intro _; rfl
      | cons x n ih =>
        intro hx
        simp only [List.mem_cons, not_or] at hx
        simp only [List.cons_append, toBrace]
        rw [if_neg (Ne.symm hx.1), ih hx.2]
    simp only [List.mem_cons, not_or] at h2
    have hu : unicodeEscape E (123 :: a :: name ++ [125] ++ rest) = .ok (91 :: body, 125 :: rest) := by
      simp only [List.cons_append, unicodeEscape]
      rw [if_neg (by decide)]
      simp only [hb name h2.2, h]
    have hsc : shortcut E (112 :: 123 :: a :: name ++ [125] ++ rest) = .ok (some (91 :: body), 125 :: rest) := by
      rw [show 112 :: 123 :: a :: name ++ [125] ++ rest = 112 :: (123 :: a :: name ++ [125] ++ rest) from rfl]
      simp only [shortcut]
      rw [if_neg (by decide), if_neg (by decide), if_pos trivial]
      simp only [bind, Except.bind, hu]
    unfold escapeSeq
    rw [if_neg (by simp)]
    simp only [bind, Except.bind, hsc]

theorem charset_sub {E : TokEnv} {ic : Bool} {d : Nat} {body : List Nat} {S : Nat → Prop}
    (h : Fuel (fun x => x.2 = [] ∧ SetIs E.max x.1 S) (charset E ic d body)) : Fuel (fun t => SetIs E.max t S) (sub E ic d body) := by
  unfold sub
  rcases h with h | ⟨⟨t, r⟩, h, _, h2⟩
  · left; rw [h]; rfl
  · right; exact ⟨t, by rw [h]; rfl, h2⟩

/-- The claims of the induction. -/
def Claim (E : TokEnv) (ic : Bool) (part : Part) (w : List Nat) (S : Nat → Prop) (rest : List Nat) : Prop :=
  match part with
  | .whole => (∀ d ∈ w, d ≤ E.max) → ∀ (d : Nat) (out : List Nat), Fuel (fun x => x.2 = out ∧ SetIs E.max x.1 S) (charset E ic d (w ++ out))
  | .items b => w ≠ [] ∧ (b = false → w.head? ≠ some 93) ∧ ((∀ d ∈ w, d ≤ E.max) → ∀ (d : Nat) (out : List Nat) (n : Nat) (t : Token),
      w.length < n → Cs E.max t → Fuel (fun x => x.2 = out ∧ SetIs E.max x.1 (fun c => Mem c t ∨ S c)) (charsetLoop E ic (sub E ic d) n t (w ++ out)))
  | .item => w ≠ [] ∧ (rest ≠ [] → (∀ d ∈ w, d ≤ E.max) → ∀ (d : Nat) (out : List Nat) (n : Nat) (t : Token), Cs E.max t →
      charsetLoop E ic (sub E ic d) (n + 1) t (w ++ rest ++ out) = .error .fuel ∨
      ∃ t', charsetLoop E ic (sub E ic d) (n + 1) t (w ++ rest ++ out) = after E ic (sub E ic d) n t' (rest ++ out) ∧
        SetIs E.max t' (fun c => Mem c t ∨ S c))
  | .posix => ∃ body, w ≠ [] ∧ w.head? ≠ some 94 ∧ (∀ rest, posixName (posixTexts E) (w ++ rest) = some (91 :: body, rest)) ∧
      ∀ d, Fuel (fun x => x.2 = [] ∧ SetIs E.max x.1 S) (charset E ic d body)

theorem setIs_insert {max : Nat} {t u : Token} {S : Nat → Prop} (ht : Cs max t) (hu : SetIs max u S) :
    SetIs max (t.insertToken u) (fun c => Mem c t ∨ S c) := by
  refine ⟨ht.insertToken hu.cs, fun c => ?_⟩
  rw [(Token.insertToken_spec t u ht.normal hu.cs.normal.1).2, hu.mem]

theorem setIs_negate {E : TokEnv} {t : Token} {S : Nat → Prop} (ht : SetIs E.max t S) : SetIs E.max (t.negate E.max) (Compl E S) := by
  obtain ⟨g1, g2⟩ := Token.negate_spec E.max t ht.cs.normal ht.cs.within
  exact ⟨ht.cs.negate, fun c => by rw [g2, ht.mem]; rfl⟩

theorem setIs_ne {max : Nat} {t : Token} {S : Nat → Prop} (ht : SetIs max t S) (h : ∃ c, S c) : t ≠ [] := by
  obtain ⟨c, hc⟩ := h
  exact Cs.ne_of_mem ((ht.mem c).2 hc)

theorem brackets_claim {E : TokEnv} (hE : TokEnvOk E) (hC : CharsOk E) {ic : Bool} {part : Part} {w rest : List Nat} {S : Nat → Prop}
    (h : Brackets E ic part w S rest) : Claim E ic part w S rest := by
  induction h with
  | pos w S hh _ hex ih =>
    obtain ⟨hne, -, ih⟩ := ih
    intro hw d out
    cases d with
    | zero => exact .inl (by unfold charset; rfl)
    | succ d =>
      have := ih hw d out ((w ++ out).length + 1) [] (by simp; omega) Cs.nil
      cases w with
      | nil => exact absurd rfl hne
      | cons a w =>
        have ha : a ≠ 94 := by simpa using hh
        rw [charset.eq_def]
        simp only [List.cons_append, if_neg ha, bind, Except.bind] at this ⊢
        rcases this with h | ⟨⟨t, r⟩, h, h1, h2⟩
        · left
          change charsetLoop E ic (fun str => do let (t, _) ← charset E ic d str; .ok t) _ _ _ = _ at h
          simp only [bind, Except.bind] at h
          rw [h]
        · right
          change charsetLoop E ic (fun str => do let (t, _) ← charset E ic d str; .ok t) _ _ _ = _ at h
          simp only [bind, Except.bind] at h
          have h2' : SetIs E.max t S := h2.congr fun c => by simp [Token.mem_nil]
          exact ⟨(t, r), by rw [h]; simp only; rw [if_neg (setIs_ne h2' hex)], h1, h2'⟩
  | neg w S _ hex ih =>
    obtain ⟨hne, -, ih⟩ := ih
    intro hw d out
    cases d with
    | zero => exact .inl (by unfold charset; rfl)
    | succ d =>
      have := ih (fun x hx => hw x (by simp [hx])) d out ((w ++ out).length + 1) [] (by simp; omega) Cs.nil
      have hwo : w ++ out ≠ [] := by simp [hne]
      rw [charset.eq_def]
      simp only [List.cons_append, if_true, if_neg hwo, bind, Except.bind] at this ⊢
      rcases this with h | ⟨⟨t, r⟩, h, h1, h2⟩
      · left
        change charsetLoop E ic (fun str => do let (t, _) ← charset E ic d str; .ok t) _ _ _ = _ at h
        simp only [bind, Except.bind] at h
        rw [h]
      · right
        change charsetLoop E ic (fun str => do let (t, _) ← charset E ic d str; .ok t) _ _ _ = _ at h
        simp only [bind, Except.bind] at h
        have h2' : SetIs E.max t S := h2.congr fun c => by simp [Token.mem_nil]
        have h3 := setIs_negate h2'
        exact ⟨(t.negate E.max, r), by rw [h]; simp only; rw [if_neg (setIs_ne h3 hex)], h1, h3⟩
  | last b w S hb _ ih =>
    obtain ⟨hne, ih⟩ := ih
    refine ⟨by simp, ?_, ?_⟩
    · rintro rfl
      cases w with
      | nil => exact absurd rfl hne
      | cons a w => simpa using hb
    · intro hw d out n t hn ht
      obtain ⟨n, rfl⟩ : ∃ m, n = m + 1 := ⟨n - 1, by omega⟩
      rcases ih (by simp) (fun x hx => hw x (by simp [hx])) d out n t ht with h | ⟨t', h, h1⟩
      · exact .inl h
      · exact .inr ⟨(t', out), h, rfl, h1⟩
  | more b w S w' S' hb _ _ ih ih' =>
    obtain ⟨hne, ih⟩ := ih
    obtain ⟨hne', hh', ih'⟩ := ih'
    refine ⟨by simp [hne], ?_, ?_⟩
    · rintro rfl
      cases w with
      | nil => exact absurd rfl hne
      | cons a w => simpa using hb
    · intro hw d out n t hn ht
      obtain ⟨n, rfl⟩ : ∃ m, n = m + 1 := ⟨n - 1, by omega⟩
      have hlen : 0 < w.length := List.length_pos_iff.2 hne
      rcases ih hne' (fun x hx => hw x (by simp [hx])) d out n t ht with h | ⟨t', h, h1⟩
      · exact .inl h
      · have hafter : after E ic (sub E ic d) n t' (w' ++ out) = charsetLoop E ic (sub E ic d) n t' (w' ++ out) := by
          have := hh' rfl
          cases w' with
          | nil => exact absurd rfl hne'
          | cons a w' => exact if_pos (by simpa using this)
        have := ih' (fun x hx => hw x (by simp [hx])) d out n t' (by simp at hn; omega) h1.cs
        rw [h, hafter]
        rcases this with h | ⟨x, h, h2, h3⟩
        · exact .inl h
        · exact .inr ⟨x, h, h2, h3.congr fun c => by rw [h1.mem, or_assoc]⟩
  | char w c rest h hd =>
    refine ⟨chr_ne h, fun hr hw d out n t ht => .inr ?_⟩
    have hc := chr_le hE h hw
    rw [List.append_assoc, loop_char hC.small ic _ n t (chr_append h hr out) (noDash_append hd hr out) (by simp [hr])]
    refine ⟨_, rfl, addRange_cs hE ic (Nat.le_refl _) hc ht, fun x => ?_⟩
    rw [mem_addRange hE hC ic (Nat.le_refl _) hc ht]
    exact or_congr_right (closed_congr (fun c => by dsimp only; omega) x)
  | range v x w y rest h1 h2 h3 hxy =>
    refine ⟨by simp, fun hr hw d out n t ht => .inr ?_⟩
    have hc := chr_le hE h2 fun x hx => hw x (by simp [hx])
    have e : v ++ 45 :: w ++ rest ++ out = v ++ 45 :: w ++ (rest ++ out) := by simp
    have h1' : Chr E.max v x (45 :: w ++ (rest ++ out)) := by simpa using chr_append h1 (by simp) out
    rw [e, loop_range hC.small ic _ n t h1' (chr_append h2 hr out) h3 hxy (by simp [hr])]
    exact ⟨_, rfl, addRange_cs hE ic hxy hc ht, fun x => mem_addRange hE hC ic hxy hc ht x⟩
  | short c S rest h hex hd =>
    refine ⟨by simp, fun hr hw d out n t ht => ?_⟩
    have e : [92, c] ++ rest ++ out = 92 :: [c] ++ (rest ++ out) := by simp
    rw [e, loop_text ic _ n t (shortcut_seq h (rest ++ out)) (noDash_append hd hr out) (by simp [hr])]
    have : Fuel (fun t => SetIs E.max t S) (sub E ic d (shortText c).tail) := by
      apply charset_sub
      cases d with
      | zero => exact .inl (by unfold charset; rfl)
      | succ d =>
        obtain ⟨t, g1, g2⟩ := short_charset hE hC h hex d
        exact .inr ⟨_, g1, rfl, g2⟩
    rcases this with h | ⟨u, h, hu⟩
    · left; rw [h]
    · right; rw [h]; exact ⟨_, rfl, setIs_insert ht hu⟩
  | prop name body S rest h1 h2 h3 _ hd ih =>
    refine ⟨by simp, fun hr hw d out n t ht => ?_⟩
    have e : 92 :: 112 :: 123 :: name ++ [125] ++ rest ++ out = 92 :: (112 :: 123 :: name ++ [125]) ++ (rest ++ out) := by simp
    rw [e, loop_text ic _ n t (unicode_seq h1 h2 h3) (noDash_append hd hr out) (by simp [hr])]
    have := charset_sub (by simpa using ih (fun x hx => hE.unicode _ _ h3 x (by simp [hx])) d [])
    rcases this with h | ⟨u, h, hu⟩
    · left; rw [List.tail_cons, h]
    · right; rw [List.tail_cons, h]; exact ⟨_, rfl, setIs_insert ht hu⟩
  | posix name S rest _ hd ih =>
    obtain ⟨body, h1, h2, h3, h4⟩ := ih
    refine ⟨by simp, fun hr hw d out n t ht => ?_⟩
    have e : 91 :: 58 :: name ++ [58, 93] ++ rest ++ out = 91 :: 58 :: (name ++ [58, 93]) ++ (rest ++ out) := by simp
    rw [e, loop_posix ic _ n t (posixClass_ok h1 h2 h3).1 (noDash_append hd hr out) (by simp [hr])]
    rcases charset_sub (h4 d) with h | ⟨u, h, hu⟩
    · left; rw [List.tail_cons, h]
    · right; rw [List.tail_cons, h]; exact ⟨_, rfl, setIs_insert ht hu⟩
  | posixNeg name S rest _ hd ih =>
    obtain ⟨body, h1, h2, h3, h4⟩ := ih
    refine ⟨by simp, fun hr hw d out n t ht => ?_⟩
    have e : 91 :: 58 :: 94 :: name ++ [58, 93] ++ rest ++ out = 91 :: 58 :: (94 :: name ++ [58, 93]) ++ (rest ++ out) := by simp
    rw [e, loop_posix ic _ n t (posixClass_ok h1 h2 h3).2 (noDash_append hd hr out) (by simp [hr])]
    rcases charset_sub (h4 d) with h | ⟨u, h, hu⟩
    · left; rw [List.tail_cons, h]
    · right; rw [List.tail_cons, h]; exact ⟨_, rfl, setIs_insert ht (setIs_negate hu)⟩
  | posixByte name S hs h hex =>
    obtain ⟨body, h1, h2, h3, h4⟩ := posixByte_name (ic := ic) hE hC hs h hex
    refine ⟨body, h1, h2, h3, fun d => ?_⟩
    cases d with
    | zero => exact .inl (by unfold charset; rfl)
    | succ d =>
      obtain ⟨t, g1, g2⟩ := h4 d
      exact .inr ⟨_, g1, rfl, g2⟩
  | posixWide name body S hs h _ ih =>
    obtain ⟨h1, h2, h3, h4⟩ := posixWide_name hs h
    refine ⟨body, h1, h2, h4, fun d => ?_⟩
    simpa using ih (fun x hx => Nat.le_trans (h3 x hx) hE.big) d []

/-- A bracketed charset is read as `Brackets` says. -/
theorem charset_ok {E : TokEnv} (hE : TokEnvOk E) (hC : CharsOk E) {ic : Bool} {w rest : List Nat} {S : Nat → Prop}
    (h : Brackets E ic .whole w S []) (hw : TextOk E (w ++ rest)) :
    ∃ t, charset E ic charsetDepth (w ++ rest) = .ok (t, rest) ∧ SetIs E.max t S := by
  rcases brackets_claim hE hC h (fun d hd => hw d (by simp [hd])) charsetDepth rest with h | ⟨⟨t, r⟩, h1, rfl, h2⟩
  · have := charset_total hE ic hw
    rw [h] at this
    exact this.elim
  · exact ⟨t, h1, h2⟩

end Lexertl.Reading

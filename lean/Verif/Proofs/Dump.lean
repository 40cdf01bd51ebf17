import Verif.Spec.Dump
import Verif.Model.Debug
import Verif.Proofs.StringToken

/-
Printed charsets are read as the same charsets.
-/
namespace Lexertl.Dump
open Spec

/-! ### Numbers -/

def IsDig (c : Nat) : Prop := (48 ≤ c ∧ c ≤ 57) ∨ (97 ≤ c ∧ c ≤ 102)

theorem numRev_ne (b f n : Nat) : numRev b (f + 1) n ≠ [] := by simp [numRev]

theorem numText_ne (b n : Nat) : numText b n ≠ [] := by
  simp [numText, numRev_ne]

theorem numRev_dig {b : Nat} (hb : 0 < b) (hb' : b ≤ 16) : ∀ (f n : Nat), ∀ c ∈ numRev b f n, IsDig c ∧ (b ≤ 10 → c ≤ 57)
  | 0, _, c, h => by simp [numRev] at h
  | f + 1, n, c, h => by
    simp only [numRev, List.mem_cons] at h
    rcases h with rfl | h
    · have := Nat.mod_lt n hb
      unfold IsDig
      split <;> omega
    · split at h
      · simp at h
      · exact numRev_dig hb hb' f _ c h

theorem numText_dig {b : Nat} (hb : 0 < b) (hb' : b ≤ 16) (n : Nat) : ∀ c ∈ numText b n, IsDig c ∧ (b ≤ 10 → c ≤ 57) := by
  intro c h
  exact numRev_dig hb hb' _ _ c (by simpa [numText] using h)

/-- The value of a digit. -/
def digVal (d : Nat) : Nat := if d ≤ 57 then d - 48 else if d ≤ 70 then d - 55 else d - 87

/-- The value of digits, the last one first. -/
def revVal (b : Nat) : List Nat → Nat
  | [] => 0
  | d :: ds => digVal d + b * revVal b ds

theorem digVal_digit {d : Nat} (h : d < 16) : digVal (if d < 10 then 48 + d else 87 + d) = d := by
  unfold digVal
  split <;> (repeat' split) <;> omega

theorem numRev_val {b : Nat} (hb : 2 ≤ b) (hb' : b ≤ 16) : ∀ (f n : Nat), n < f → revVal b (numRev b f n) = n
  | 0, n, h => by omega
  | f + 1, n, h => by
    have h1 := Nat.mod_lt n (show 0 < b by omega)
    simp only [numRev, revVal]
    rw [digVal_digit (by omega)]
    split
    · rename_i h2
      simp [revVal, Nat.mod_eq_of_lt h2]
    · rename_i h2
      have h3 : n / b < n := Nat.div_lt_self (by omega) (by omega)
      rw [numRev_val hb hb' f (n / b) (by omega)]
      exact Nat.mod_add_div n b

theorem foldl_reverse_val {b : Nat} (g : Nat → Nat → Nat) (hg : ∀ n d, g n d = n * b + digVal d) (ds : List Nat) :
    ds.reverse.foldl g 0 = revVal b ds := by
  induction ds with
  | nil => rfl
  | cons d ds ih =>
    rw [List.reverse_cons, List.foldl_append, ih]
    simp only [List.foldl_cons, List.foldl_nil, hg, revVal]
    rw [Nat.mul_comm]; omega

theorem hexVal_numText (n : Nat) : hexVal (numText 16 n) = n := by
  unfold hexVal numText
  exact (foldl_reverse_val (b := 16) _ (fun _ _ => rfl) _).trans (numRev_val (by omega) (by omega) _ _ (by omega))

theorem numText_inj {b : Nat} (hb : 2 ≤ b) (hb' : b ≤ 16) {m n : Nat} (h : numText b m = numText b n) : m = n := by
  have h1 : numRev b (m + 1) m = numRev b (n + 1) n := List.reverse_inj.1 h
  rw [← numRev_val hb hb' (m + 1) m (by omega), h1, numRev_val hb hb' _ _ (by omega)]

/-! ### Characters -/

/-- What follows does not change how the printed character is read. -/
structure Ends (c : Nat) (rest : List Nat) : Prop where
  hex : AsHex c → ∀ d ∈ rest.head?, ¬ IsHexDigit d
  oct : c = 0 → ∀ d ∈ rest.head?, ¬ IsOct d
  posix : c = 91 → rest.head? ≠ some 58

theorem named_mem {c v : Nat} (h : (c, v) ∈ namedEscapes) (max : Nat) (rest : List Nat) : Chr max [92, c] v rest :=
  .esc [c] v rest (.named c v rest h)

theorem self_esc {c : Nat} (h : c ∈ [34, 39, 40, 41, 42, 43, 45, 46, 47, 63, 91, 92, 93, 94, 123, 124, 125]) (max : Nat) (rest : List Nat) :
    EscChar max [c] c rest := by
  apply EscChar.self
  · simp only [List.mem_cons, List.not_mem_nil, or_false] at h
    unfold IsOct; omega
  · simp only [List.mem_cons, List.not_mem_nil, or_false] at h
    simp only [namedEscapes, List.map_cons, List.map_nil, List.mem_cons, List.not_mem_nil, or_false]; omega
  · simp only [List.mem_cons, List.not_mem_nil, or_false] at h
    simp only [List.mem_cons, List.not_mem_nil, or_false]; omega

/-- The characters with an escape of their own. -/
def escapedChars : List Nat := [0, 7, 8, 27, 12, 10, 13, 9, 11, 92, 34, 39]

theorem escapeChar_other (b : Nat) {c : Nat} (h : c ∉ escapedChars) :
    escapeChar b c = if c < 32 ∨ c > 126 then 92 :: 120 :: numText b c else [c] := by
  simp only [escapedChars, List.mem_cons, List.not_mem_nil, or_false] at h
  unfold escapeChar
  iterate 12 rw [if_neg (by omega)]

/-- A printed character: itself, or an escape for it. -/
theorem escape_cases {max c : Nat} {rest : List Nat} (hc : c ≤ max) (he : Ends c rest) :
    (∃ v : List Nat, escapeChar 16 c = 92 :: v ∧ EscChar max v c rest) ∨
    (escapeChar 16 c = [c] ∧ 32 ≤ c ∧ c ≤ 126 ∧ c ∉ [34, 39, 92]) := by
  by_cases h : c ∈ escapedChars
  · simp only [escapedChars, List.mem_cons, List.not_mem_nil, or_false] at h
    rcases h with rfl | rfl | rfl | rfl | rfl | rfl | rfl | rfl | rfl | rfl | rfl | rfl
    · exact .inl ⟨[48], rfl, .octal [48] rest (by simp) (by simp) (by simp [IsOct]) (fun _ => he.oct rfl) (by simp [octVal])⟩
    · exact .inl ⟨_, rfl, .named _ _ _ (by decide)⟩
    · exact .inl ⟨_, rfl, .named _ _ _ (by decide)⟩
    · exact .inl ⟨_, rfl, .hex [49, 98] rest (by simp) (by simp [IsHexDigit]) (he.hex (by decide)) hc⟩
    · exact .inl ⟨_, rfl, .named _ _ _ (by decide)⟩
    · exact .inl ⟨_, rfl, .named _ _ _ (by decide)⟩
    · exact .inl ⟨_, rfl, .named _ _ _ (by decide)⟩
    · exact .inl ⟨_, rfl, .named _ _ _ (by decide)⟩
    · exact .inl ⟨_, rfl, .named _ _ _ (by decide)⟩
    · exact .inl ⟨_, rfl, self_esc (by decide) _ _⟩
    · exact .inl ⟨_, rfl, self_esc (by decide) _ _⟩
    · exact .inl ⟨_, rfl, self_esc (by decide) _ _⟩
  · rw [escapeChar_other 16 h]
    simp only [escapedChars, List.mem_cons, List.not_mem_nil, or_false] at h
    split
    · rename_i h'
      refine .inl ⟨_, rfl, ?_⟩
      have := EscChar.hex (max := max) (numText 16 c) rest (numText_ne _ _)
        (fun d hd => by have := (numText_dig (by omega) (by omega) c d hd).1; unfold IsDig at this; unfold IsHexDigit; omega)
        (he.hex (by unfold AsHex; omega)) (by rw [hexVal_numText]; exact hc)
      rwa [hexVal_numText] at this
    · refine .inr ⟨rfl, by omega, by omega, ?_⟩
      simp only [List.mem_cons, List.not_mem_nil, or_false]; omega

theorem escape_chr {max c : Nat} {rest : List Nat} (hc : c ≤ max) (he : Ends c rest) : Chr max (escapeChar 16 c) c rest := by
  rcases escape_cases hc he with ⟨v, h1, h2⟩ | ⟨h1, h2, h3, h4⟩
  · rw [h1]; exact .esc v c rest h2
  · rw [h1]
    refine .self c rest (fun h => h4 (by simp [h])) (fun h => he.posix h.1 h.2)

theorem escape_head (b c : Nat) : (escapeChar b c).head? = some 92 ∨ ((escapeChar b c).head? = some c ∧ c ≠ 92) := by
  by_cases h : c ∈ escapedChars
  · simp only [escapedChars, List.mem_cons, List.not_mem_nil, or_false] at h
    rcases h with rfl | rfl | rfl | rfl | rfl | rfl | rfl | rfl | rfl | rfl | rfl | rfl <;> exact .inl rfl
  · rw [escapeChar_other b h]
    simp only [escapedChars, List.mem_cons, List.not_mem_nil, or_false] at h
    split
    · exact .inl rfl
    · exact .inr ⟨rfl, by omega⟩

/-! ### Ranges -/

theorem range_head (b : Nat) (r : Range) (rest : List Nat) : (dumpRange b r ++ rest).head? = some 92 ∨
    ((dumpRange b r ++ rest).head? = some r.1 ∧ r.1 ≠ 92 ∧ r.1 ≠ 45 ∧ r.1 ≠ 94 ∧ (r.1 = 93 → r.1 = r.2)) := by
  unfold dumpRange
  split
  · exact .inl rfl
  · rename_i h1
    split
    · exact .inl rfl
    · have := escape_head b r.1
      simp only [List.nil_append, List.append_assoc]
      cases h : escapeChar b r.1 with
      | nil => rw [h] at this; simp at this
      | cons d ds =>
        rw [h] at this
        simp only [List.cons_append, List.head?_cons, Option.some.injEq] at this ⊢
        omega

/-- The text from a range on: the ranges, then the closing bracket. -/
def tailText (b : Nat) (rs : Token) : List Nat := rs.flatMap (dumpRange b) ++ [93]

theorem tail_head (b : Nat) (rs : Token) (d : Nat) (h : d ∈ (tailText b rs).head?) : d = 92 ∨ (d = 93 ∧ rs = []) ∨
    ∃ q ∈ rs.head?, d = q.1 ∧ q.1 ≠ 92 ∧ q.1 ≠ 45 ∧ q.1 ≠ 94 ∧ (q.1 = 93 → q.1 = q.2) := by
  cases rs with
  | nil => simp [tailText] at h; exact .inr (.inl ⟨h.symm, rfl⟩)
  | cons q qs =>
    have h1 : tailText b (q :: qs) = dumpRange b q ++ tailText b qs := by simp [tailText]
    rw [h1] at h
    rcases range_head b q (tailText b qs) with h2 | ⟨h2, h3⟩
    · rw [h2] at h; simp at h; exact .inl h.symm
    · rw [h2] at h; simp at h
      exact .inr (.inr ⟨q, rfl, h.symm, h3⟩)

theorem tail_noDash (b : Nat) (rs : Token) : NoDash (tailText b rs) := by
  intro h
  rcases tail_head b rs 45 h with h | h | ⟨q, _, h⟩ <;> omega

theorem tail_ends {r : Range} {rs : Token} (hn : Normal (r :: rs)) (hl : NumbersEnd (r :: rs)) : Ends r.2 (tailText 16 rs) := by
  have hq : ∀ q ∈ rs.head?, (AsHex r.2 → ¬ IsHexDigit q.1) ∧ (r.2 = 0 → ¬ IsOct q.1) ∧ r.2 + 1 < q.1 := by
    intro q hq
    cases rs with
    | nil => simp at hq
    | cons p ps =>
      simp at hq; subst hq
      exact ⟨hl.1, hl.2.1, (List.pairwise_cons.1 hn.2).1 p (by simp)⟩
  constructor
  · intro h d hd
    rcases tail_head 16 rs d hd with h' | h' | ⟨q, h1, h2, h3⟩
    · subst h'; decide
    · rw [h'.1]; decide
    · rw [h2]; exact (hq q h1).1 h
  · intro h d hd
    rcases tail_head 16 rs d hd with h' | h' | ⟨q, h1, h2, h3⟩
    · subst h'; decide
    · rw [h'.1]; decide
    · rw [h2]; exact (hq q h1).2.1 h
  · intro h hd
    rcases tail_head 16 rs 58 hd with h' | h' | ⟨q, h1, h2, h3⟩
    · omega
    · omega
    · have := (hq q h1).2.2; omega

theorem closed_false {E : TokEnv} (S : Nat → Prop) (x : Nat) : Closed E false S x ↔ S x := by
  unfold Closed; simp

theorem prefix_chr {max c : Nat} {rest : List Nat} (p : Bool) (hc : c ≤ max) (he : Ends c rest) (hp : p = true → c ∈ [45, 93, 94]) :
    Chr max ((if p then [92] else []) ++ escapeChar 16 c) c rest := by
  cases p with
  | false => exact escape_chr hc he
  | true =>
    have h := hp rfl
    have h1 : escapeChar 16 c = [c] := by
      simp only [List.mem_cons, List.not_mem_nil, or_false] at h
      rcases h with rfl | rfl | rfl <;> rfl
    rw [h1]
    exact .esc [c] c rest (self_esc (by simp only [List.mem_cons, List.not_mem_nil, or_false] at h ⊢; omega) _ _)

/-- A range, as the first item or a later one, and what comes after it. -/
theorem range_items {E : TokEnv} {r : Range} {rs : Token} {first : Bool} {S' : Nat → Prop} (hr : r.1 ≤ r.2) (hm : r.2 ≤ E.max)
    (hn : Normal (r :: rs)) (hl : NumbersEnd (r :: rs)) (hends : r.1 ≠ r.2 → r.2 ∉ [45, 93, 94]) (hf : first = true ∨ r ≠ (93, 93))
    (hrest : rs = [] ∨ Brackets E false (.items false) (tailText 16 rs) S' []) (hS' : rs = [] → ∀ c, ¬ S' c) :
    ∃ S : Nat → Prop, Brackets E false (.items first) (tailText 16 (r :: rs)) S [] ∧ ∀ c, S c ↔ (r.1 ≤ c ∧ c ≤ r.2) ∨ S' c := by
  obtain ⟨a, b⟩ := r
  simp only at hr hm hends
  have hend := tail_ends hn hl
  simp only at hend
  -- one item, then the rest
  have one : ∀ (fst : Bool) (w : List Nat) (S : Nat → Prop), (fst = true ∨ w.head? ≠ some 93) → Brackets E false .item w S (tailText 16 rs) →
      ∃ T : Nat → Prop, Brackets E false (.items fst) (w ++ tailText 16 rs) T [] ∧ ∀ c, T c ↔ S c ∨ S' c := by
    intro fst w S h1 h2
    rcases hrest with h | h
    · subst h
      exact ⟨S, .last fst w S h1 h2, fun c => by simp [hS' rfl c]⟩
    · exact ⟨_, .more fst w S _ S' h1 h2 h, fun c => Iff.rfl⟩
  have htext : tailText 16 ((a, b) :: rs) = dumpRange 16 (a, b) ++ tailText 16 rs := by simp [tailText]
  have headOk : first = true ∨ (dumpRange 16 (a, b)).head? ≠ some 93 := by
    rcases hf with h | h
    · exact .inl h
    · right
      intro h'
      rcases range_head 16 (a, b) [] with h1 | ⟨h1, h2⟩
      · rw [List.append_nil, h'] at h1; simp at h1
      · rw [List.append_nil, h'] at h1
        simp only [Option.some.injEq] at h1
        simp only at h2
        have := h2.2.2.2 h1.symm
        exact h (by rw [← h1] at this; rw [← this, ← h1])
  by_cases hab : a = b
  · subst hab
    have h1 : dumpRange 16 (a, a) = (if decide (a = 45 ∨ a = 94) then [92] else []) ++ escapeChar 16 a := by
      simp [dumpRange]
    obtain ⟨T, h2, h3⟩ := one first (dumpRange 16 (a, a)) _ headOk (.char _ a _ (by
      rw [h1]
      exact prefix_chr _ hm hend (fun h => by
        simp only [decide_eq_true_eq] at h
        simp only [List.mem_cons, List.not_mem_nil, or_false]; omega)) (tail_noDash 16 rs))
    refine ⟨T, by rw [htext]; exact h2, fun c => ?_⟩
    rw [h3, closed_false]
    constructor
    · rintro (h | h)
      · exact .inl (by omega)
      · exact .inr h
    · rintro (h | h)
      · exact .inl (by omega)
      · exact .inr h
  · have hb := hends hab
    simp only [List.mem_cons, List.not_mem_nil, or_false] at hb
    have hb1 : ¬ (b = 45 ∨ b = 94 ∨ b = 93) := by omega
    have hw : (escapeChar 16 b).head? ≠ some 93 := by
      intro h
      rcases escape_head 16 b with h1 | h1
      · rw [h] at h1; simp at h1
      · rw [h] at h1; simp at h1; omega
    have hpre : ∀ rest, Ends a rest → Chr E.max ((if decide (a = 45 ∨ a = 94 ∨ a = 93) then [92] else []) ++ escapeChar 16 a) a rest :=
      fun rest h => prefix_chr _ (by omega) h (fun h => by
        simp only [decide_eq_true_eq] at h
        simp only [List.mem_cons, List.not_mem_nil, or_false]; omega)
    by_cases hadj : a + 1 < b
    · have h1 : dumpRange 16 (a, b) = ((if decide (a = 45 ∨ a = 94 ∨ a = 93) then [92] else []) ++ escapeChar 16 a) ++ 45 :: escapeChar 16 b := by
        simp [dumpRange, hab, hb1, hadj]
      obtain ⟨T, h2, h3⟩ := one first (dumpRange 16 (a, b)) _ headOk (by
        rw [h1]
        refine .range _ a _ b _ (hpre _ ⟨fun _ d hd => ?_, fun _ d hd => ?_, fun _ => by simp⟩) (escape_chr hm hend) hw hr
        · simp at hd; subst hd; decide
        · simp at hd; subst hd; decide)
      refine ⟨T, by rw [htext]; exact h2, fun c => ?_⟩
      rw [h3, closed_false]
    · have hb2 : b = a + 1 := by omega
      have h1 : dumpRange 16 (a, b) = ((if decide (a = 45 ∨ a = 94 ∨ a = 93) then [92] else []) ++ escapeChar 16 a) ++ escapeChar 16 b := by
        simp [dumpRange, hab, hb1, hadj]
      obtain ⟨T, h2, h3⟩ := one false (escapeChar 16 b) _ (.inr hw) (.char _ b _ (escape_chr hm hend) (tail_noDash 16 rs))
      have hhead : ∀ d ∈ (escapeChar 16 b ++ tailText 16 rs).head?, d = 92 ∨ d = b := by
        intro d hd
        rcases escape_head 16 b with h | h
        · cases he : escapeChar 16 b with
          | nil => rw [he] at h; simp at h
          | cons x xs => rw [he] at h hd; simp at h hd; omega
        · cases he : escapeChar 16 b with
          | nil => rw [he] at h; simp at h
          | cons x xs => rw [he] at h hd; simp at h hd; omega
      have hfst : first = true ∨ ((if decide (a = 45 ∨ a = 94 ∨ a = 93) then [92] else []) ++ escapeChar 16 a).head? ≠ some 93 := by
        right
        split
        · simp
        · rename_i h
          simp only [decide_eq_true_eq] at h
          simp only [List.nil_append]
          intro h'
          rcases escape_head 16 a with h4 | h4
          · rw [h'] at h4; simp at h4
          · rw [h'] at h4; simp at h4; omega
      refine ⟨fun c => Closed E false (· = a) c ∨ T c, ?_, ?_⟩
      · rw [htext, h1, List.append_assoc]
        refine .more first _ _ _ T hfst (.char _ a _ (hpre _ ⟨fun h d hd => ?_, fun h d hd => ?_, fun h h' => ?_⟩) ?_) h2
        · rcases hhead d hd with h4 | h4
          · subst h4; decide
          · subst h4; unfold AsHex at h; unfold IsHexDigit; omega
        · rcases hhead d hd with h4 | h4
          · subst h4; decide
          · subst h4; unfold IsOct; omega
        · rcases hhead 58 h' with h4 | h4 <;> omega
        · intro h'
          rcases hhead 45 h' with h4 | h4 <;> omega
      · intro c
        dsimp only
        rw [closed_false, h3, closed_false]
        constructor
        · rintro (h | h | h)
          · exact .inl (by omega)
          · exact .inl (by omega)
          · exact .inr h
        · rintro (h | h)
          · by_cases h4 : c = a
            · exact .inl h4
            · exact .inr (.inl (by omega))
          · exact .inr (.inr h)

theorem ranges_items {E : TokEnv} : ∀ (rs : Token) (first : Bool), rs ≠ [] → Normal rs → Within E.max rs → NumbersEnd rs →
    (∀ r ∈ rs, r.1 ≠ r.2 → r.2 ∉ [45, 93, 94]) → (93, 93) ∉ (if first then rs.tail else rs) →
    ∃ S : Nat → Prop, Brackets E false (.items first) (tailText 16 rs) S [] ∧ ∀ c, S c ↔ Mem c rs
  | [], _, h, _, _, _, _, _ => absurd rfl h
  | r :: rs, first, _, hn, hw, hl, he, hf => by
    have hn1 := (Token.normal_cons r rs).1 hn
    have h1 : ∃ S' : Nat → Prop, (rs = [] ∨ Brackets E false (.items false) (tailText 16 rs) S' []) ∧ (rs = [] → ∀ c, ¬ S' c) ∧
        ∀ c, S' c ↔ Mem c rs := by
      by_cases hrs : rs = []
      · subst hrs
        exact ⟨fun _ => False, .inl rfl, fun _ _ h => h, fun c => by simp [Token.mem_nil]⟩
      · obtain ⟨S, h1, h2⟩ := ranges_items rs false hrs hn1.2.2 (fun q hq => hw q (by simp [hq])) (by
            cases rs with
            | nil => exact absurd rfl hrs
            | cons q qs => exact hl.2.2) (fun q hq => he q (by simp [hq])) (by
            cases first with
            | true => simpa using hf
            | false => intro h; exact hf (by simpa using .inr h))
        exact ⟨S, .inr h1, fun h => absurd h hrs, h2⟩
    obtain ⟨S', h1, h2, h3⟩ := h1
    obtain ⟨S, h4, h5⟩ := range_items (first := first) (S' := S') (hn.1 r (by simp)) (hw r (by simp)) hn hl (he r (by simp)) (by
      cases first with
      | true => exact .inl rfl
      | false => right; rintro rfl; exact hf (by simp)) h1 h2
    exact ⟨S, h4, fun c => by rw [h5, h3, Token.mem_cons]⟩

/-! ### Charsets -/

theorem size_foldl (t : Token) (n : Nat) : t.foldl (fun size r => size + (r.2 + 1 - r.1)) n = n + charCount t := by
  induction t generalizing n with
  | nil => simp [charCount]
  | cons r t ih =>
    rw [List.foldl_cons, ih]
    simp only [charCount]; omega

theorem any_iff (max : Nat) (t : Token) : Token.any max t = true ↔ t = [(0, max)] := by
  unfold Token.any
  split
  · rename_i r
    obtain ⟨a, b⟩ := r
    simp
  · rename_i h
    simp only [Bool.false_eq_true, false_iff]
    intro h'; subst h'
    exact h _ rfl

theorem negated_iff (max : Nat) (t : Token) :
    ((!Token.any max t && Token.negatable max t) = true) ↔ (max < 2 * charCount t ∧ t ≠ [(0, max)]) := by
  have h1 := any_iff max t
  have h2 := size_foldl t 0
  simp only [Bool.and_eq_true, Bool.not_eq_true', Token.negatable, decide_eq_true_eq, h2]
  rw [← Bool.not_eq_true, h1]
  constructor
  · rintro ⟨h3, h4⟩; exact ⟨by omega, h3⟩
  · rintro ⟨h3, h4⟩; exact ⟨h4, by omega⟩

theorem mem_full {max : Nat} (c : Nat) : Mem c [(0, max)] ↔ c ≤ max := by simp [Mem]

theorem mem_of_ne {t : Token} (hn : Normal t) (h : t ≠ []) : ∃ c, Mem c t := by
  cases t with
  | nil => exact absurd rfl h
  | cons r t => exact ⟨r.1, r, by simp, Nat.le_refl _, hn.1 r (by simp)⟩

theorem lists_ok {max : Nat} {t : Token} (ht : SetOk max t) :
    Lists max t (if (!Token.any max t && Token.negatable max t) = true then Token.negate max t else t) := by
  unfold Lists
  by_cases h : (!Token.any max t && Token.negatable max t) = true
  · rw [if_pos ((negated_iff max t).1 h), if_pos h]
    exact Token.negate_spec max t ht.1 ht.2.2
  · rw [if_neg (fun h' => h ((negated_iff max t).2 h')), if_neg h]

/-- The printed charset is one regex text for this set of characters. -/
theorem charset_atom {E : TokEnv} (hE : 127 ≤ E.max) {t : Token} (ht : SetOk E.max t) (hc : Clear E.max t) :
    ∃ w : List Nat, dumpCharset E.max 16 t = .ok w ∧ ∀ (f : ReFlags) (start : Bool), f.icase = false → f.skipWs = false →
      ∃ S : Nat → Prop, AtomText E f false start w S [] ∧ IsSet t S := by
  have hu := lists_ok ht
  obtain ⟨hn, hne, hw⟩ := ht
  have hleg := hc.2 _ hu
  cases t with
  | nil => exact absurd rfl hne
  | cons r rs =>
  by_cases hneg : (!Token.any E.max (r :: rs) && Token.negatable E.max (r :: rs)) = true
  · -- the complement
    have hcond := (negated_iff E.max (r :: rs)).1 hneg
    rw [if_pos hneg] at hleg
    have hspec := Token.negate_spec E.max (r :: rs) hn hw
    generalize hu' : Token.negate E.max (r :: rs) = u at *
    have hune : u ≠ [] := by
      intro h
      subst h
      apply hcond.2
      apply Token.normal_ext _ _ hn ⟨by simp, by simp⟩
      intro c
      rw [mem_full]
      constructor
      · intro h; exact (Token.within_iff E.max _ hn.1).1 hw c h
      · intro h
        exact Classical.byContradiction fun h' => Token.mem_nil c ((hspec.2 c).2 ⟨h, h'⟩)
    have hbr : rs ≠ [] ∨ r.1 ≠ r.2 := by
      by_cases h : rs = []
      · right
        intro h'
        have := hcond.1
        rw [h] at this
        simp only [charCount] at this
        omega
      · exact .inl h
    have huw : Within E.max u := (Token.within_iff E.max u hspec.1.1).2 (fun c h => ((hspec.2 c).1 h).1)
    obtain ⟨S, h1, h2⟩ := ranges_items (E := E) u true hune hspec.1 huw hleg.numbers hleg.ends (by simpa using hleg.first)
    refine ⟨91 :: 94 :: tailText 16 u, ?_, fun f start hi hs => ?_⟩
    · unfold dumpCharset
      simp only [hneg, if_pos hbr, if_true, hu']
      cases u with
      | nil => exact absurd rfl hune
      | cons q qs =>
        simp only [or_true, true_or, if_true, tailText]
        simp
    · refine ⟨Compl E S, .set start _ _ _ ?_, hn, fun c => ?_⟩
      · rw [hi]
        refine .neg _ S h1 ?_
        obtain ⟨c, hc⟩ := mem_of_ne hn hne
        exact ⟨c, (Token.within_iff E.max _ hn.1).1 hw c hc, fun h => ((hspec.2 c).1 ((h2 c).1 h)).2 hc⟩
      · unfold Compl
        rw [h2, hspec.2]
        constructor
        · intro h; exact ⟨(Token.within_iff E.max _ hn.1).1 hw c h, fun h' => h'.2 h⟩
        · rintro ⟨h1, h2⟩
          exact Classical.byContradiction fun h' => h2 ⟨h1, h'⟩
  · rw [if_neg hneg] at hleg
    by_cases hbr : rs ≠ [] ∨ r.1 ≠ r.2
    · obtain ⟨S, h1, h2⟩ := ranges_items (E := E) (r :: rs) true hne hn hw hleg.numbers hleg.ends (by simpa using hleg.first)
      refine ⟨91 :: tailText 16 (r :: rs), ?_, fun f start hi hs => ?_⟩
      · unfold dumpCharset
        simp only [if_pos hbr, if_neg hneg]
        rw [if_pos (by
          rcases hbr with h | h
          · exact .inl h
          · exact .inr (.inr h))]
        simp [tailText]
      · refine ⟨S, .set start _ _ _ ?_, hn, fun c => (h2 c).symm⟩
        rw [hi]
        refine .pos _ S (fun h => ?_) h1 ?_
        · rcases tail_head 16 (r :: rs) 94 h with h' | h' | ⟨q, _, h', _, _, h'', _⟩ <;> omega
        · obtain ⟨c, hc⟩ := mem_of_ne hn hne
          exact ⟨c, (h2 c).2 hc⟩
    · have hrs : rs = [] := Classical.byContradiction fun h => hbr (.inl h)
      have hr : r.1 = r.2 := Classical.byContradiction fun h => hbr (.inr h)
      obtain ⟨a, b⟩ := r
      simp only at hr
      subst hr hrs
      have ha : a ≤ E.max := hw (a, a) (by simp)
      have hset : IsSet [(a, a)] (fun c => c = a) := ⟨hn, fun c => by simp [Mem]; omega⟩
      refine ⟨(if a ∈ dumpMeta then [92] else []) ++ dumpRange 16 (a, a), ?_, fun f start hi hs => ?_⟩
      · unfold dumpCharset
        simp only [if_neg hbr, if_neg hneg]
        rw [if_neg (by
          rintro (h | h | h)
          · exact h rfl
          · exact hneg h
          · exact h rfl)]
        simp
      · have hcl : ∀ S : Nat → Prop, Closed E f.icase S = S := fun S => by
          rw [hi]; exact funext fun x => propext (closed_false S x)
        refine ⟨fun c => c = a, ?_, hset⟩
        have hesc : a ∈ [40, 41, 42, 43, 45, 46, 47, 63, 91, 93, 94, 123, 124, 125] → AtomText E f false start [92, a] (fun c => c = a) [] := by
          intro h
          have := AtomText.esc (E := E) (f := f) false start [a] a [] (self_esc (by
            simp only [List.mem_cons, List.not_mem_nil, or_false] at h ⊢; omega) _ _)
          rwa [hcl] at this
        by_cases hm : a ∈ dumpMeta
        · have h1 : dumpRange 16 (a, a) = [a] := by
            simp only [dumpMeta, List.mem_cons, List.not_mem_nil, or_false] at hm
            rcases hm with rfl | rfl | rfl | rfl | rfl | rfl | rfl | rfl | rfl | rfl | rfl | rfl <;> decide
          rw [if_pos hm, h1]
          exact hesc (by simp only [dumpMeta, List.mem_cons, List.not_mem_nil, or_false] at hm ⊢; omega)
        · rw [if_neg hm, List.nil_append]
          by_cases h45 : a = 45 ∨ a = 94
          · have h1 : dumpRange 16 (a, a) = [92, a] := by
              rcases h45 with rfl | rfl <;> decide
            rw [h1]
            exact hesc (by simp only [List.mem_cons, List.not_mem_nil, or_false]; omega)
          · have h1 : dumpRange 16 (a, a) = escapeChar 16 a := by
              unfold dumpRange
              rw [if_neg (by simp only; omega), if_neg (by simp), if_neg (by simp)]
              simp
            rw [h1]
            rcases escape_cases (max := E.max) (c := a) (rest := []) ha ⟨by simp, by simp, by simp⟩ with ⟨v, h2, h3⟩ | ⟨h2, h3, h4, h5⟩
            · rw [h2]
              have := AtomText.esc (E := E) (f := f) false start v a [] h3
              rwa [hcl] at this
            · rw [h2]
              have h36 : a ≠ 36 := fun h => hc.1 (by rw [h])
              have := AtomText.plain (E := E) (f := f) start a [] (by
                simp only [dumpMeta, metaChars, List.mem_cons, List.not_mem_nil, or_false] at hm h5 ⊢; omega) (by simp [hs])
              rwa [hcl] at this

/-- The printed charset, read as a regex, means this charset. -/
theorem charset_means {E : TokEnv} (hE : 127 ≤ E.max) {t : Token} (ht : SetOk E.max t) (hc : Clear E.max t) :
    ∃ w : List Nat, dumpCharset E.max 16 t = .ok w ∧ ∀ (M : List (List Nat × Re)) (f : ReFlags), f.icase = false → f.skipWs = false →
      Means E M f w (.chars t) := by
  obtain ⟨w, h1, h2⟩ := charset_atom hE ht hc
  refine ⟨w, h1, fun M f hi hs => ?_⟩
  obtain ⟨S, h3, h4⟩ := h2 f true hi hs
  refine ⟨[.chars t], ?_, .alt1 _ _ (.seq1 _ _ (.item _ _ (.set _ _ (.chars t))))⟩
  have := Reads.atom true f [] false w S t [] [] h3 h4 (.done false f)
  rwa [List.append_nil] at this

end Lexertl.Dump

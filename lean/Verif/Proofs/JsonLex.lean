import Verif.Proofs.JsonRules

/-
What the rules of the JSON example match.
-/
namespace Lexertl.Json
open Spec Spec.Json Reading Props

/-! ### Texts of expressions -/

def Lang (r : Re) (l : List Nat) : Prop := r.Matches (l.map .ch)

theorem lang_seq {a b : Re} {l : List Nat} : Lang (.seq a b) l ↔ ∃ x y, l = x ++ y ∧ Lang a x ∧ Lang b y := by
  constructor
  · rintro ⟨u, v, h, h1, h2⟩
    obtain ⟨x, y, rfl, rfl, rfl⟩ := List.map_eq_append_iff.1 h
    exact ⟨x, y, rfl, h1, h2⟩
  · rintro ⟨x, y, rfl, h1, h2⟩
    exact ⟨_, _, List.map_append, h1, h2⟩

theorem lang_alt {a b : Re} {l : List Nat} : Lang (.alt a b) l ↔ Lang a l ∨ Lang b l := Iff.rfl

theorem lang_opt {a : Re} {z : Bool} {l : List Nat} : Lang (.opt a z) l ↔ l = [] ∨ Lang a l := by
  unfold Lang
  rw [Re.Matches, List.map_eq_nil_iff]

theorem lang_chars {t : List (Nat × Nat)} {l : List Nat} : Lang (.chars t) l ↔ ∃ c, l = [c] ∧ Mem c t := chars_matches

theorem lang_chr {c : Nat} {l : List Nat} : Lang (cset c) l ↔ l = [c] := by
  unfold cset
  rw [lang_chars]
  simp only [Mem, List.mem_singleton, exists_eq_left]
  constructor
  · rintro ⟨d, rfl, h⟩
    rw [show d = c from by omega]
  · rintro rfl
    exact ⟨c, rfl, by omega⟩

theorem lang_plus {t : List (Nat × Nat)} {z : Bool} {l : List Nat} : Lang (.plus (.chars t) z) l ↔ l ≠ [] ∧ ∀ c ∈ l, Mem c t := Wc.plus_chars l

theorem lang_star_chars {t : List (Nat × Nat)} {z : Bool} {l : List Nat} : Lang (.star (.chars t) z) l ↔ ∀ c ∈ l, Mem c t := by
  constructor
  · rintro ⟨k, h⟩
    exact ((Wc.pow_chars k l).1 h).2
  · intro h
    exact ⟨l.length, (Wc.pow_chars _ l).2 ⟨rfl, h⟩⟩

theorem lang_rep_chars {t : List (Nat × Nat)} {n : Nat} {z : Bool} {l : List Nat} :
    Lang (.rep (.chars t) n (some n) z) l ↔ l.length = n ∧ ∀ c ∈ l, Mem c t := by
  constructor
  · rintro ⟨k, h1, h2, h⟩
    have := h2 n rfl
    obtain ⟨h3, h4⟩ := (Wc.pow_chars k l).1 h
    exact ⟨by omega, h4⟩
  · rintro ⟨h1, h2⟩
    exact ⟨n, Nat.le_refl _, fun h e => by cases e; exact Nat.le_refl _, (Wc.pow_chars _ l).2 ⟨h1, h2⟩⟩

theorem lang_star {a : Re} {z : Bool} {l : List Nat} (h : Lang (.star a z) l) : l = [] ∨ ∃ x y, l = x ++ y ∧ Lang a x ∧ Lang (.star a z) y := by
  obtain ⟨k, h⟩ := h
  cases k with
  | zero => exact .inl (List.map_eq_nil_iff.1 h)
  | succ k =>
    obtain ⟨u, v, h, h1, h2⟩ := h
    obtain ⟨x, y, rfl, rfl, rfl⟩ := List.map_eq_append_iff.1 h
    exact .inr ⟨x, y, rfl, h1, k, h2⟩

theorem lang_star_nil {a : Re} {z : Bool} : Lang (.star a z) [] := ⟨0, rfl⟩

theorem lang_star_cons {a : Re} {z : Bool} {x y : List Nat} (h1 : Lang a x) (h2 : Lang (.star a z) y) : Lang (.star a z) (x ++ y) := by
  obtain ⟨k, h2⟩ := h2
  exact ⟨k + 1, x.map .ch, y.map .ch, List.map_append, h1, h2⟩

/-! ### Strings -/

theorem mem_hex {c : Nat} : Mem c hexSet ↔ Hex c := by
  simp only [Mem, hexSet, Hex, List.mem_cons, List.not_mem_nil, or_false, exists_eq_or_imp, exists_eq_left]
  omega

theorem mem_dig {c : Nat} : Mem c digSet ↔ 48 ≤ c ∧ c ≤ 57 := by
  simp [Mem, digSet]

theorem mem_esc {c : Nat} : Mem c escSet ↔ c ∈ [34, 92, 47, 98, 102, 110, 114, 116] := by
  simp only [Mem, escSet, List.mem_cons, List.not_mem_nil, or_false, exists_eq_or_imp, exists_eq_left]
  omega

theorem mem_str {c : Nat} : Mem c strSet ↔ 32 ≤ c ∧ c ≤ 0x10ffff ∧ c ≠ 34 ∧ c ≠ 92 := by
  simp only [Mem, strSet, List.mem_cons, List.not_mem_nil, or_false, exists_eq_or_imp, exists_eq_left]
  omega

/-- One character of a string, or one escape. -/
theorem lang_item {x : List Nat} : Lang (.alt (.chars strSet) escRe) x ↔ (∃ c, x = [c] ∧ 32 ≤ c ∧ c ≤ 0x10ffff ∧ c ≠ 34 ∧ c ≠ 92) ∨
    (∃ c, x = [92, c] ∧ c ∈ [34, 92, 47, 98, 102, 110, 114, 116]) ∨ (∃ a b c d, x = [92, 117, a, b, c, d] ∧ Hex a ∧ Hex b ∧ Hex c ∧ Hex d) := by
  rw [lang_alt, lang_chars]
  have h1 : Lang escRe x ↔ (∃ c, x = [92, c] ∧ c ∈ [34, 92, 47, 98, 102, 110, 114, 116]) ∨
      (∃ a b c d, x = [92, 117, a, b, c, d] ∧ Hex a ∧ Hex b ∧ Hex c ∧ Hex d) := by
    unfold escRe
    simp only [lang_seq, lang_alt, lang_chr, lang_chars, lang_rep_chars]
    constructor
    · rintro ⟨u, v, rfl, rfl, ⟨c, rfl, h⟩ | ⟨p, q, rfl, rfl, h1, h2⟩⟩
      · exact .inl ⟨c, rfl, mem_esc.1 h⟩
      · match q, h1 with
        | [a, b, c, d], _ =>
          exact .inr ⟨a, b, c, d, rfl, mem_hex.1 (h2 a (by simp)), mem_hex.1 (h2 b (by simp)), mem_hex.1 (h2 c (by simp)), mem_hex.1 (h2 d (by simp))⟩
    · rintro (⟨c, rfl, h⟩ | ⟨a, b, c, d, rfl, ha, hb, hc, hd⟩)
      · exact ⟨[92], [c], rfl, rfl, .inl ⟨c, rfl, mem_esc.2 h⟩⟩
      · refine ⟨[92], [117, a, b, c, d], rfl, rfl, .inr ⟨[117], [a, b, c, d], rfl, rfl, rfl, ?_⟩⟩
        intro e he
        simp only [List.mem_cons, List.not_mem_nil, or_false] at he
        rw [mem_hex]
        rcases he with rfl | rfl | rfl | rfl <;> assumption
  rw [h1]
  simp only [mem_str]

theorem body_star : ∀ (n : Nat) {l : List Nat}, l.length ≤ n → Lang (.star (.alt (.chars strSet) escRe) false) l → StrBody l
  | n, [], _, _ => .nil
  | 0, _ :: _, h, _ => by simp at h
  | n + 1, a :: l, hn, h => by
    rcases lang_star h with h | ⟨x, y, h, h1, h2⟩
    · cases h
    rw [h] at hn ⊢
    rcases lang_item.1 h1 with ⟨c, rfl, g1, g2, g3, g4⟩ | ⟨c, rfl, g⟩ | ⟨a, b, c, d, rfl, g1, g2, g3, g4⟩
    · exact .char c y g1 g2 g3 g4 (body_star n (by simp at hn; omega) h2)
    · exact .esc c y g (body_star n (by simp at hn; omega) h2)
    · exact .uni a b c d y g1 g2 g3 g4 (body_star n (by simp at hn; omega) h2)

theorem star_body {l : List Nat} (h : StrBody l) : Lang (.star (.alt (.chars strSet) escRe) false) l := by
  induction h with
  | nil => exact lang_star_nil
  | char c w h1 h2 h3 h4 _ ih => exact lang_star_cons (x := [c]) (lang_item.2 (.inl ⟨c, rfl, h1, h2, h3, h4⟩)) ih
  | esc c w h _ ih => exact lang_star_cons (x := [92, c]) (lang_item.2 (.inr (.inl ⟨c, rfl, h⟩))) ih
  | uni a b c d w h1 h2 h3 h4 _ ih => exact lang_star_cons (x := [92, 117, a, b, c, d]) (lang_item.2 (.inr (.inr ⟨a, b, c, d, rfl, h1, h2, h3, h4⟩))) ih

def IsString (v : List Nat) : Prop := ∃ b, StrBody b ∧ v = 34 :: b ++ [34]

theorem lang_str {v : List Nat} : Lang strRe v ↔ IsString v := by
  unfold strRe
  simp only [lang_seq, lang_chr]
  constructor
  · rintro ⟨_, _, rfl, ⟨_, b, rfl, rfl, h⟩, rfl⟩
    exact ⟨b, body_star _ (Nat.le_refl _) h, rfl⟩
  · rintro ⟨b, h, rfl⟩
    exact ⟨34 :: b, [34], rfl, ⟨[34], b, rfl, rfl, star_body h⟩, rfl⟩

/-- No string is the start of another one. -/
theorem body_prefix {b : List Nat} (h : StrBody b) : ∀ {b' w w' : List Nat}, StrBody b' → b ++ 34 :: w = b' ++ 34 :: w' → b = b' := by
  induction h with
  | nil =>
    intro b' w w' h' e
    cases h' with
    | nil => rfl
    | char c x h1 h2 h3 h4 h5 => cases e; exact absurd rfl h3
    | esc c x h1 h2 => cases e
    | uni a b c d x h1 h2 h3 h4 h5 => cases e
  | char c x h1 h2 h3 h4 _ ih =>
    intro b' w w' h' e
    cases h' with
    | nil => cases e; exact absurd rfl h3
    | char c' x' _ _ _ _ h5 =>
      simp only [List.cons_append, List.cons.injEq] at e
      rw [e.1, ih h5 e.2]
    | esc c' x' _ _ => simp only [List.cons_append, List.cons.injEq] at e; exact absurd e.1 h4
    | uni a b c d x _ _ _ _ _ => simp only [List.cons_append, List.cons.injEq] at e; exact absurd e.1 h4
  | esc c x h1 _ ih =>
    intro b' w w' h' e
    cases h' with
    | nil => cases e
    | char c' x' _ _ _ h4 h5 => simp only [List.cons_append, List.cons.injEq] at e; exact absurd e.1.symm h4
    | esc c' x' _ h2 =>
      simp only [List.cons_append, List.cons.injEq, true_and] at e
      rw [e.1, ih h2 e.2]
    | uni a b c' d x _ _ _ _ _ =>
      simp only [List.cons_append, List.cons.injEq, true_and] at e
      rw [e.1] at h1
      exact absurd h1 (by decide)
  | uni a b c d x h1 h2 h3 h4 _ ih =>
    intro b' w w' h' e
    cases h' with
    | nil => cases e
    | char c' x' _ _ _ h4 h5 => simp only [List.cons_append, List.cons.injEq] at e; exact absurd e.1.symm h4
    | esc c' x' g _ =>
      simp only [List.cons_append, List.cons.injEq, true_and] at e
      rw [← e.1] at g
      exact absurd g (by decide)
    | uni a' b' c' d' x' _ _ _ _ g =>
      simp only [List.cons_append, List.cons.injEq, true_and] at e
      obtain ⟨rfl, rfl, rfl, rfl, e⟩ := e
      rw [ih g e]

theorem str_prefix {v v' w w' : List Nat} (h : IsString v) (h' : IsString v') (e : v ++ w = v' ++ w') : v = v' := by
  obtain ⟨b, hb, rfl⟩ := h
  obtain ⟨b', hb', rfl⟩ := h'
  simp only [List.cons_append, List.append_assoc, List.nil_append, List.cons.injEq, true_and] at e
  rw [body_prefix hb hb' e]

/-! ### Numbers and words -/

theorem lang_num {v : List Nat} : Lang numRe v ↔ IsNumber v := by
  unfold numRe intRe fracRe expRe
  simp only [lang_seq, lang_alt, lang_opt, lang_chr, lang_plus, lang_star_chars, lang_chars, mem_dig]
  constructor
  · rintro ⟨_, e, rfl, ⟨_, f, rfl, ⟨s, i, rfl, hs, hi⟩, hf⟩, he⟩
    refine ⟨s, i, f, e, rfl, hs, ?_, ?_, ?_⟩
    · rcases hi with hi | ⟨_, ds, rfl, ⟨d, rfl, h⟩, hd⟩
      · exact .inl hi
      · simp only [Mem, List.mem_singleton, exists_eq_left] at h
        exact .inr ⟨d, ds, h.1, h.2, hd, rfl⟩
    · rcases hf with hf | ⟨_, ds, rfl, rfl, h1, h2⟩
      · exact .inl hf
      · exact .inr ⟨ds, h1, h2, rfl⟩
    · rcases he with he | ⟨_, ds, rfl, ⟨_, s, rfl, ⟨m, rfl, hm⟩, hs⟩, h1, h2⟩
      · exact .inl he
      · refine .inr ⟨m, s, ds, ?_, ?_, h1, h2, rfl⟩
        · simp only [Mem, List.mem_cons, List.not_mem_nil, or_false, exists_eq_or_imp, exists_eq_left] at hm
          omega
        · rcases hs with hs | ⟨c, rfl, hc⟩
          · exact .inl hs
          · simp only [Mem, List.mem_cons, List.not_mem_nil, or_false, exists_eq_or_imp, exists_eq_left] at hc
            rcases hc with hc | hc
            · exact .inr (.inl (by rw [show c = 43 from by omega]))
            · exact .inr (.inr (by rw [show c = 45 from by omega]))
  · rintro ⟨s, i, f, e, rfl, hs, hi, hf, he⟩
    refine ⟨s ++ i ++ f, e, rfl, ⟨s ++ i, f, rfl, ⟨s, i, rfl, hs, ?_⟩, ?_⟩, ?_⟩
    · rcases hi with hi | ⟨d, ds, h1, h2, h3, rfl⟩
      · exact .inl hi
      · exact .inr ⟨[d], ds, rfl, ⟨d, rfl, by simp [Mem, h1, h2]⟩, h3⟩
    · rcases hf with hf | ⟨ds, h1, h2, rfl⟩
      · exact .inl hf
      · exact .inr ⟨[46], ds, rfl, rfl, h1, h2⟩
    · rcases he with he | ⟨m, s, ds, hm, hs, h1, h2, rfl⟩
      · exact .inl he
      · refine .inr ⟨m :: s, ds, rfl, ⟨[m], s, rfl, ⟨m, rfl, ?_⟩, ?_⟩, h1, h2⟩
        · rcases hm with rfl | rfl <;> simp [Mem]
        · rcases hs with rfl | rfl | rfl
          · exact .inl rfl
          · exact .inr ⟨43, rfl, by simp [Mem]⟩
          · exact .inr ⟨45, rfl, by simp [Mem]⟩

def NumChar (c : Nat) : Prop := (48 ≤ c ∧ c ≤ 57) ∨ c = 45 ∨ c = 46 ∨ c = 43 ∨ c = 101 ∨ c = 69

theorem num_chars {v : List Nat} (h : IsNumber v) : ∀ c ∈ v, NumChar c := by
  obtain ⟨s, i, f, e, rfl, hs, hi, hf, he⟩ := h
  intro c hc
  simp only [List.mem_append] at hc
  unfold NumChar
  rcases hc with ((hc | hc) | hc) | hc
  · rcases hs with rfl | rfl
    · cases hc
    · simp at hc; omega
  · rcases hi with rfl | ⟨d, ds, h1, h2, h3, rfl⟩
    · simp at hc; omega
    · rcases List.mem_cons.1 hc with rfl | hc
      · omega
      · have := h3 c hc; omega
  · rcases hf with rfl | ⟨ds, h1, h2, rfl⟩
    · cases hc
    · rcases List.mem_cons.1 hc with rfl | hc
      · omega
      · have := h2 c hc; omega
  · rcases he with rfl | ⟨m, s, ds, hm, hs, h1, h2, rfl⟩
    · cases hc
    · rcases List.mem_cons.1 hc with rfl | hc
      · omega
      · rcases List.mem_append.1 hc with hc | hc
        · rcases hs with rfl | rfl | rfl
          · cases hc
          · simp at hc; omega
          · simp at hc; omega
        · have := h2 c hc; omega

theorem num_head {v : List Nat} (h : IsNumber v) : ∃ c w, v = c :: w ∧ (c = 45 ∨ (48 ≤ c ∧ c ≤ 57)) := by
  obtain ⟨s, i, f, e, rfl, hs, hi, hf, he⟩ := h
  rcases hs with rfl | rfl
  · rcases hi with rfl | ⟨d, ds, h1, h2, h3, rfl⟩
    · exact ⟨48, _, rfl, by omega⟩
    · exact ⟨d, _, rfl, by omega⟩
  · exact ⟨45, _, rfl, by omega⟩

theorem lang_true {v : List Nat} : Lang trueRe v ↔ v = [116, 114, 117, 101] := by
  unfold trueRe
  simp only [lang_seq, lang_chr]
  constructor
  · rintro ⟨_, _, rfl, ⟨_, _, rfl, ⟨_, _, rfl, rfl, rfl⟩, rfl⟩, rfl⟩
    rfl
  · rintro rfl
    exact ⟨[116, 114, 117], [101], rfl, ⟨[116, 114], [117], rfl, ⟨[116], [114], rfl, rfl, rfl⟩, rfl⟩, rfl⟩

theorem lang_false {v : List Nat} : Lang falseRe v ↔ v = [102, 97, 108, 115, 101] := by
  unfold falseRe
  simp only [lang_seq, lang_chr]
  constructor
  · rintro ⟨_, _, rfl, ⟨_, _, rfl, ⟨_, _, rfl, ⟨_, _, rfl, rfl, rfl⟩, rfl⟩, rfl⟩, rfl⟩
    rfl
  · rintro rfl
    exact ⟨[102, 97, 108, 115], [101], rfl, ⟨[102, 97, 108], [115], rfl, ⟨[102, 97], [108], rfl, ⟨[102], [97], rfl, rfl, rfl⟩, rfl⟩, rfl⟩, rfl⟩

theorem lang_null {v : List Nat} : Lang nullRe v ↔ v = [110, 117, 108, 108] := by
  unfold nullRe
  simp only [lang_seq, lang_chr]
  constructor
  · rintro ⟨_, _, rfl, ⟨_, _, rfl, ⟨_, _, rfl, rfl, rfl⟩, rfl⟩, rfl⟩
    rfl
  · rintro rfl
    exact ⟨[110, 117, 108], [108], rfl, ⟨[110, 117], [108], rfl, ⟨[110], [117], rfl, rfl, rfl⟩, rfl⟩, rfl⟩

/-! ### Forms -/

/-- The texts of a form. -/
def Form.Texts : Form → List Nat → Prop
  | .str, v => IsString v
  | .num, v => IsNumber v
  | .bool, v => v = [116, 114, 117, 101] ∨ v = [102, 97, 108, 115, 101]
  | .null, v => v = [110, 117, 108, 108]
  | .ch c, v => v = [c]
  | .ws, v => v ≠ [] ∧ Ws v

theorem form_lang (f : Form) (v : List Nat) : f.re.Matches (v.map .ch) ↔ f.Texts v := by
  cases f with
  | str => exact lang_str
  | num => exact lang_num
  | bool => exact lang_alt.trans (or_congr lang_true lang_false)
  | null => exact lang_null
  | ch c => exact lang_chr
  | ws =>
    refine lang_plus.trans (and_congr_right fun _ => ?_)
    unfold Ws
    simp only [Mem, wsSet, List.mem_cons, List.not_mem_nil, or_false, exists_eq_or_imp, exists_eq_left]
    constructor
    · intro h c hc
      have := h c hc
      omega
    · intro h c hc
      have := h c hc
      omega

/-- The characters the texts start with. -/
def Form.first : Form → List (Nat × Nat)
  | .str => [(34, 34)]
  | .num => [(45, 45), (48, 57)]
  | .bool => [(102, 102), (116, 116)]
  | .null => [(110, 110)]
  | .ch c => [(c, c)]
  | .ws => [(9, 10), (13, 13), (32, 32)]

theorem texts_first {f : Form} {v : List Nat} (h : f.Texts v) : ∃ c w, v = c :: w ∧ Calc.inSet c f.first = true := by
  cases f with
  | str =>
    obtain ⟨b, _, rfl⟩ := h
    exact ⟨34, _, rfl, by decide⟩
  | num =>
    obtain ⟨c, w, rfl, h⟩ := num_head h
    refine ⟨c, w, rfl, ?_⟩
    simp [Calc.inSet, Form.first]
    omega
  | bool => rcases h with rfl | rfl <;> exact ⟨_, _, rfl, by decide⟩
  | null => subst h; exact ⟨_, _, rfl, by decide⟩
  | ch c => subst h; exact ⟨_, _, rfl, by simp [Calc.inSet, Form.first]⟩
  | ws =>
    obtain ⟨h1, h2⟩ := h
    cases v with
    | nil => exact absurd rfl h1
    | cons c w =>
      refine ⟨c, w, rfl, ?_⟩
      have := h2 c (by simp)
      simp [Calc.inSet, Form.first]
      omega

end Lexertl.Json

import Verif.Proofs.Noise

/-
The tokeniser finds the lexemes of a text one after the other.
-/
namespace Lexertl.Reading
open Spec

/-! ### Counts -/

theorem isDigit_iff (c : Nat) : isDigit c = true ↔ 48 ≤ c ∧ c ≤ 57 := by simp [isDigit]

theorem number_ok : ∀ (ds : List Nat) (n : Nat) (rest : List Nat), (∀ c ∈ ds, 48 ≤ c ∧ c ≤ 57) → (∀ c ∈ rest.head?, ¬ (48 ≤ c ∧ c ≤ 57)) →
    ds.foldl (fun n c => n * 10 + (c - 48)) n < 2 ^ 64 → number n (ds ++ rest) = (ds.foldl (fun n c => n * 10 + (c - 48)) n, ds, rest)
  | [], n, rest, _, hr, _ => by
    cases rest with
    | nil => rfl
    | cons c rest =>
      have := hr c (by simp)
      simp only [List.nil_append, number]
      rw [if_neg (by rw [isDigit_iff]; exact this)]
      rfl
  | d :: ds, n, rest, hd, hr, hlt => by
    have h1 := hd d (by simp)
    simp only [List.foldl_cons] at hlt ⊢
    have h2 := Nat.lt_of_le_of_lt (le_foldl_dec _ _) hlt
    simp only [List.cons_append, number]
    rw [if_pos ((isDigit_iff d).2 h1), Nat.mod_eq_of_lt h2, number_ok ds _ rest (fun c hc => hd c (by simp [hc])) hr hlt]

/-- The token of a repetition. -/
def IsRep (d : Tok) (lo : Nat) (hi : Option Nat) (lz : Bool) : Prop := ∀ r, Postfix d r (repeated r lo hi lz)

theorem lazyTok_lazy (a b : TT) (e w : List Nat) : lazyTok a b e (63 :: w) = (⟨b, e, []⟩, w) := rfl

theorem lazyTok_greedy (a b : TT) (e : List Nat) {w : List Nat} (h : w.head? ≠ some 63) : lazyTok a b e w = (⟨a, e, []⟩, w) := by
  unfold lazyTok
  split
  · simp at h
  · rfl

theorem isRep_opt (e : List Nat) : IsRep ⟨.opt, e, []⟩ 0 (some 1) false ∧ IsRep ⟨.aopt, e, []⟩ 0 (some 1) true :=
  ⟨fun r => .opt e [] r, fun r => .aopt e [] r⟩
theorem isRep_star (e : List Nat) : IsRep ⟨.zeroormore, e, []⟩ 0 none false ∧ IsRep ⟨.azeroormore, e, []⟩ 0 none true :=
  ⟨fun r => .star e [] r, fun r => .astar e [] r⟩
theorem isRep_plus (e : List Nat) : IsRep ⟨.oneormore, e, []⟩ 1 none false ∧ IsRep ⟨.aoneormore, e, []⟩ 1 none true :=
  ⟨fun r => .plus e [] r, fun r => .aplus e [] r⟩
theorem isRep_count {e : List Nat} {lo : Nat} {hi : Option Nat} (h : Count e lo hi) (h1 : ¬ (lo = 0 ∧ hi = some 1)) (h2 : ¬ (lo = 0 ∧ hi = none))
    (h3 : ¬ (lo = 1 ∧ hi = none)) : IsRep ⟨.repeatn, e, []⟩ lo hi false ∧ IsRep ⟨.arepeatn, e, []⟩ lo hi true := by
  constructor
  · intro r
    unfold repeated
    rw [if_neg h1, if_neg h2, if_neg h3]
    exact .rep e [] r lo hi h
  · intro r
    unfold repeated
    rw [if_neg h1, if_neg h2, if_neg h3]
    exact .arep e [] r lo hi h

theorem braces_dec {v : List Nat} {lo : Nat} {hi : Option Nat} (h : Braces v lo hi) : ∃ c cs, v = c :: cs ∧ 48 ≤ c ∧ c ≤ 57 := by
  have : ∀ {ds : List Nat}, IsDec ds → ∃ c cs, ds = c :: cs ∧ 48 ≤ c ∧ c ≤ 57 := by
    intro ds h
    cases ds with
    | nil => exact absurd rfl h.1
    | cons c cs => exact ⟨c, cs, rfl, h.2 c (by simp)⟩
  cases h with
  | exact ds h => exact this h
  | atLeast ds h => obtain ⟨c, cs, rfl, g⟩ := this h; exact ⟨c, _, rfl, g⟩
  | between ds es h => obtain ⟨c, cs, rfl, g⟩ := this h; exact ⟨c, _, rfl, g⟩

theorem repeatN_ok {v : List Nat} {lo : Nat} {hi : Option Nat} (h : Braces v lo hi) :
    ∃ a b e, IsRep ⟨a, e, []⟩ lo hi false ∧ IsRep ⟨b, e, []⟩ lo hi true ∧ ∀ w, repeatN (v ++ 125 :: w) = .ok (lazyTok a b e w) := by
  have num : ∀ {ds : List Nat} {rest : List Nat}, IsDec ds → decVal ds < 2 ^ 64 → (∀ c ∈ rest.head?, ¬ (48 ≤ c ∧ c ≤ 57)) →
      number 0 (ds ++ rest) = (decVal ds, ds, rest) := fun h1 h2 h3 => number_ok _ 0 _ h1.2 h3 h2
  cases h with
  | exact ds h1 h2 h3 =>
    obtain ⟨g1, g2⟩ := isRep_count (Count.exact v h1 h2) (by rintro ⟨a, b⟩; omega) (by simp) (by simp)
    refine ⟨.repeatn, .arepeatn, v, g1, g2, fun w => ?_⟩
    unfold repeatN
    rw [num h1 h3 (by simp)]
    simp only
    rw [if_neg (by decide), if_neg (by decide), if_neg (by omega)]
  | atLeast ds h1 h2 =>
    have hn : ∀ w, number 0 (ds ++ [44] ++ 125 :: w) = (decVal ds, ds, 44 :: 125 :: w) := by
      intro w
      rw [List.append_assoc]
      exact num h1 h2 (by simp)
    by_cases h0 : decVal ds = 0
    · rw [h0]
      obtain ⟨g1, g2⟩ := isRep_star (ds ++ [44])
      refine ⟨_, _, _, g1, g2, fun w => ?_⟩
      unfold repeatN
      rw [hn]
      simp only
      rw [if_pos trivial, if_pos trivial, if_pos h0]
    by_cases h01 : decVal ds = 1
    · rw [h01]
      obtain ⟨g1, g2⟩ := isRep_plus (ds ++ [44])
      refine ⟨_, _, _, g1, g2, fun w => ?_⟩
      unfold repeatN
      rw [hn]
      simp only
      rw [if_pos trivial, if_pos trivial, if_neg h0, if_pos h01]
    · obtain ⟨g1, g2⟩ := isRep_count (Count.atLeast ds h1 (by omega)) (by simp) (by omega) (by omega)
      refine ⟨_, _, _, g1, g2, fun w => ?_⟩
      unfold repeatN
      rw [hn]
      simp only
      rw [if_pos trivial, if_pos trivial, if_neg h0, if_neg h01]
  | between ds es h1 h2 h3 h4 h5 =>
    have hn : ∀ w, number 0 (ds ++ 44 :: es ++ 125 :: w) = (decVal ds, ds, 44 :: (es ++ 125 :: w)) := by
      intro w
      rw [List.append_assoc]
      exact num h1 (by omega) (by simp)
    have hm : ∀ w, number 0 (es ++ 125 :: w) = (decVal es, es, 125 :: w) := fun w => num h2 h5 (by simp)
    obtain ⟨c, cs, rfl⟩ : ∃ c cs, es = c :: cs := by
      cases es with
      | nil => exact absurd rfl h2.1
      | cons c cs => exact ⟨c, cs, rfl⟩
    have hc := h2.2 c (by simp)
    have red : ∀ w, repeatN (ds ++ 44 :: c :: cs ++ 125 :: w) =
        if decVal ds = 0 ∧ decVal (c :: cs) = 1 then .ok (lazyTok .opt .aopt (ds ++ [44] ++ c :: cs) w)
        else if decVal ds = decVal (c :: cs) then
          if decVal ds = 0 then throw_ "Cannot have exactly zero repeats" else .ok (lazyTok .repeatn .arepeatn ds w)
        else if decVal (c :: cs) < decVal ds then throw_ "Max less than min"
        else .ok (lazyTok .repeatn .arepeatn (ds ++ [44] ++ c :: cs) w) := by
      intro w
      unfold repeatN
      rw [hn]
      simp only [List.cons_append]
      rw [if_pos trivial, if_neg (by omega), if_neg (by rw [Bool.not_eq_false, isDigit_iff]; exact hc), ← List.cons_append, hm]
      simp only
      rw [if_neg (by decide)]
    by_cases e1 : decVal ds = 0 ∧ decVal (c :: cs) = 1
    · obtain ⟨g1, g2⟩ := isRep_opt (ds ++ [44] ++ c :: cs)
      rw [e1.1, e1.2]
      exact ⟨_, _, _, g1, g2, fun w => by rw [red, if_pos e1]⟩
    by_cases e2 : decVal ds = decVal (c :: cs)
    · obtain ⟨g1, g2⟩ := isRep_count (Count.exact ds h1 (by omega)) (by rintro ⟨a, b⟩; omega) (by simp) (by simp)
      rw [← e2]
      exact ⟨_, _, _, g1, g2, fun w => by rw [red, if_neg e1, if_pos e2, if_neg (by omega)]⟩
    · have := Count.between ds (c :: cs) h1.2 h2 (by omega) (by omega)
      obtain ⟨g1, g2⟩ := isRep_count this (by simpa using e1) (by simp) (by simp)
      refine ⟨_, _, _, g1, g2, fun w => by rw [red, if_neg e1, if_neg e2, if_neg (by omega)]; simp⟩

/-! ### Names of macros -/

theorem isLetter_iff (c : Nat) : isLetter c = true ↔ c = 95 ∨ (65 ≤ c ∧ c ≤ 90) ∨ (97 ≤ c ∧ c ≤ 122) := by
  simp [isLetter, or_assoc]

theorem isNameChar_iff (c : Nat) : isNameChar c = true ↔ c = 95 ∨ c = 45 ∨ Digit c ∨ (65 ≤ c ∧ c ≤ 90) ∨ (97 ≤ c ∧ c ≤ 122) := by
  simp only [isNameChar, Bool.or_eq_true, isLetter_iff, isDigit_iff, decide_eq_true_eq, Digit]
  omega

theorem macroName_ok : ∀ (name w : List Nat), (∀ c ∈ name, isNameChar c = true) → macroName (name ++ 125 :: w) = (name, 125 :: w)
  | [], w, _ => by
    simp only [List.nil_append, macroName]
    rw [if_neg (by decide)]
  | c :: name, w, h => by
    simp only [List.cons_append, macroName]
    rw [if_pos (h c (by simp)), macroName_ok name w fun d hd => h d (by simp [hd])]

theorem macroTok_ok {name : List Nat} (h : MacroName name) (w : List Nat) :
    macroTok (name ++ 125 :: w) = .ok (⟨.macro_, name, []⟩, w) ∧ ∃ c cs, name = c :: cs ∧ c ≠ 45 ∧ c ≠ 43 ∧ isDigit c = false := by
  obtain ⟨⟨c, hc, h1⟩, h2⟩ := h
  cases name with
  | nil => simp at hc
  | cons d cs =>
    simp only [List.head?_cons, Option.mem_def, Option.some.injEq] at hc
    subst hc
    refine ⟨?_, d, cs, rfl, by omega, by omega, ?_⟩
    · simp only [List.cons_append, macroTok]
      rw [if_neg (by rw [Bool.not_eq_false, isLetter_iff]; exact h1),
        macroName_ok cs w fun c hc => (isNameChar_iff c).2 (h2 c (by simp [hc]))]
      simp only
      rw [if_neg (by decide)]
    · rw [← Bool.not_eq_true, isDigit_iff]; omega

theorem readOptions_ok {neg : Bool} {f f' : ReFlags} {v : List Nat} (h : Options neg f v f') (w : List Nat) :
    readOptions neg f (v ++ w) = .ok (f', w) := by
  induction h with
  | done => rfl
  | minus neg f v f' _ ih => simp only [List.cons_append, readOptions]; exact ih
  | icase neg f v f' _ ih => simp only [List.cons_append, readOptions]; exact ih
  | dot neg f v f' _ ih => simp only [List.cons_append, readOptions]; exact ih
  | skip neg f v f' _ ih => simp only [List.cons_append, readOptions]; exact ih

/-! ### Atoms -/

theorem setIs_unique {max : Nat} {t u : Token} {S : Nat → Prop} (h : SetIs max t S) (hu : IsSet u S) : t = u :=
  Token.normal_ext t u h.cs.normal hu.1 fun c => (h.mem c).trans (hu.2 c).symm

theorem one_char {E : TokEnv} (hE : TokEnvOk E) (hC : CharsOk E) (ic : Bool) {c : Nat} (hc : c ≤ E.max) :
    SetIs E.max (addRange E ic (c, c) []) (Closed E ic (· = c)) := by
  refine ⟨addRange_cs hE ic (Nat.le_refl _) hc Cs.nil, fun x => ?_⟩
  rw [mem_addRange hE hC ic (Nat.le_refl _) hc Cs.nil]
  simp only [Token.mem_nil, false_or]
  exact closed_congr (fun c => by omega) x

theorem escapeTok_char {E : TokEnv} (hE : TokEnvOk E) (hC : CharsOk E) (ic : Bool) {w rest : List Nat} {c : Nat}
    (h : EscChar E.max w c rest) (hw : ∀ d ∈ w, d ≤ E.max) :
    ∃ t, escapeTok E ic (w ++ rest) = .ok (t, rest) ∧ SetIs E.max t (Closed E ic (· = c)) := by
  refine ⟨_, ?_, one_char hE hC ic (escChar_le hE h hw)⟩
  unfold escapeTok
  rw [escapeSeq_char hC.small h]
  rfl

theorem escapeTok_short {E : TokEnv} (hE : TokEnvOk E) (hC : CharsOk E) {ic : Bool} {c : Nat} {S : Nat → Prop}
    (h : Shorthand E ic c S) (hex : ∃ c, S c) (rest : List Nat) :
    ∃ t, escapeTok E ic (c :: rest) = .ok (t, rest) ∧ SetIs E.max t S := by
  obtain ⟨t, h1, h2⟩ := short_charset hE hC h hex 7
  refine ⟨t, ?_, h2⟩
  unfold escapeTok
  rw [shortcut_seq h rest]
  simp only [bind, Except.bind]
  rw [show charsetDepth = 7 + 1 from rfl, h1]

theorem escapeTok_prop {E : TokEnv} (hE : TokEnvOk E) (hC : CharsOk E) {ic : Bool} {name body rest : List Nat} {S : Nat → Prop}
    (h1 : name ≠ []) (h2 : 125 ∉ name) (h3 : E.unicode name = some (91 :: body)) (h4 : Brackets E ic .whole body S []) :
    ∃ t, escapeTok E ic (112 :: 123 :: name ++ [125] ++ rest) = .ok (t, rest) ∧ SetIs E.max t S := by
  obtain ⟨t, g1, g2⟩ := charset_ok hE hC h4 (rest := []) (fun d hd => hE.unicode _ _ h3 d (by simp at hd; simp [hd]))
  refine ⟨t, ?_, g2⟩
  unfold escapeTok
  rw [unicode_seq h1 h2 h3]
  simp only [bind, Except.bind, List.tail_cons]
  rw [List.append_nil] at g1
  rw [g1]

theorem setIs_self {max c : Nat} (h : c ≤ max) : SetIs max (Token.insert [] (c, c)) (· = c) := by
  refine ⟨Cs.nil.insert (Nat.le_refl _) h, fun x => ?_⟩
  rw [Token.mem_insert [] (c, c) Token.normal_nil (Nat.le_refl _)]
  simp only [Token.mem_nil, false_or]
  omega

theorem dotSet_is {E : TokEnv} (hE : TokEnvOk E) (f : ReFlags) : SetIs E.max (dotSet E f) (Dot E f) := by
  have hb := hE.big
  have h10 := setIs_self (max := E.max) (c := 10) (by omega)
  unfold dotSet
  split
  · rename_i hf
    refine (setIs_negate h10).congr fun c => ?_
    simp [Compl, Dot, hf]
  · rename_i hf
    split
    · rename_i hf2
      have : SetIs E.max (Token.insert (Token.insert [] (10, 10)) (13, 13)) (fun c => c = 10 ∨ c = 13) := by
        refine ⟨h10.cs.insert (Nat.le_refl _) (by dsimp only; omega), fun x => ?_⟩
        rw [Token.mem_insert _ (13, 13) h10.cs.normal (Nat.le_refl _), h10.mem]
        dsimp only
        omega
      refine (setIs_negate this).congr fun c => ?_
      simp [Compl, Dot, hf, hf2]
    · rename_i hf2
      have : SetIs E.max ([] : Token) (fun _ => False) := ⟨Cs.nil, fun c => by simp [Token.mem_nil]⟩
      refine (setIs_negate this).congr fun c => ?_
      simp [Compl, Dot, hf, hf2]

end Lexertl.Reading

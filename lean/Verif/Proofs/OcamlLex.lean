import Verif.Proofs.JsonLex
import Verif.Proofs.OcamlRules
import Verif.Spec.Ocaml

/-
What the rules of the OCaml example match.
-/
namespace Lexertl.Ocaml
open Spec Spec.Ocaml Reading Props
open Json (Lang lang_seq lang_alt lang_opt lang_chars lang_plus lang_star_chars lang_rep_chars)

local macro "memtac" : tactic => `(tactic| (
  simp only [Mem, OpChar, Digit, Letter, IsHexDigit, IsOct, List.mem_cons, List.not_mem_nil, or_false, exists_eq_or_imp, exists_eq_left]
  try omega))

theorem chr {c : Nat} {l : List Nat} : Lang (.chars [(c, c)]) l ↔ l = [c] := Json.lang_chr

theorem one {c : Nat} {l : List Nat} : (∃ d, l = [d] ∧ Mem d [(c, c)]) ↔ l = [c] := lang_chars.symm.trans chr

theorem opChars : chars "-!$%&*+./:<=>?@^|~" = [45, 33, 36, 37, 38, 42, 43, 46, 47, 58, 60, 61, 62, 63, 64, 94, 124, 126] := by decide
theorem infixChars : chars "-=<>@^|&+*/$%" = [45, 61, 60, 62, 64, 94, 124, 38, 43, 42, 47, 36, 37] := by decide
theorem prefixChars : chars "!?~" = [33, 63, 126] := by decide

theorem mem_op {c : Nat} : Mem c [(33, 33), (36, 38), (42, 43), (45, 47), (58, 58), (60, 64), (94, 94), (124, 124), (126, 126)] ↔ OpChar c := by
  unfold OpChar
  rw [opChars]
  memtac

theorem mem_infix {c : Nat} : Mem c [(36, 38), (42, 43), (45, 45), (47, 47), (60, 62), (64, 64), (94, 94), (124, 124)] ↔ c ∈ chars "-=<>@^|&+*/$%" := by
  rw [infixChars]
  memtac

theorem mem_prefix {c : Nat} : Mem c [(33, 33), (63, 63), (126, 126)] ↔ c ∈ chars "!?~" := by
  rw [prefixChars]
  memtac

theorem mem_letter {c : Nat} : Mem c [(65, 90), (95, 95), (97, 122)] ↔ Letter c := by memtac
theorem mem_idc {c : Nat} : Mem c [(39, 39), (48, 57), (65, 90), (95, 95), (97, 122)] ↔ Letter c ∨ Digit c ∨ c = 39 := by memtac
theorem mem_digit {c : Nat} : Mem c [(48, 57)] ↔ Digit c := by memtac
theorem mem_digplus {c : Nat} : Mem c [(43, 43), (48, 57)] ↔ Digit c ∨ c = 43 := by memtac
theorem mem_digu {c : Nat} : Mem c [(48, 57), (95, 95)] ↔ Digit c ∨ c = 95 := by memtac
theorem mem_hex {c : Nat} : Mem c [(48, 57), (65, 70), (97, 102)] ↔ IsHexDigit c := by memtac
theorem mem_hexu {c : Nat} : Mem c [(48, 57), (65, 70), (95, 95), (97, 102)] ↔ IsHexDigit c ∨ c = 95 := by memtac
theorem mem_oct {c : Nat} : Mem c [(48, 55)] ↔ IsOct c := by memtac
theorem mem_octu {c : Nat} : Mem c [(48, 55), (95, 95)] ↔ IsOct c ∨ c = 95 := by memtac
theorem mem_bin {c : Nat} : Mem c [(48, 49)] ↔ c ∈ [48, 49] := by memtac
theorem mem_binu {c : Nat} : Mem c [(48, 49), (95, 95)] ↔ c ∈ [48, 49] ∨ c = 95 := by memtac
theorem mem_x {c : Nat} : Mem c [(88, 88), (120, 120)] ↔ c ∈ [88, 120] := by memtac
theorem mem_o {c : Nat} : Mem c [(79, 79), (111, 111)] ↔ c ∈ [79, 111] := by memtac
theorem mem_b {c : Nat} : Mem c [(66, 66), (98, 98)] ↔ c ∈ [66, 98] := by memtac
theorem mem_e {c : Nat} : Mem c [(69, 69), (101, 101)] ↔ c ∈ [69, 101] := by memtac
theorem mem_pm {c : Nat} : Mem c [(43, 43), (45, 45)] ↔ c = 43 ∨ c = 45 := by memtac
theorem mem_frac {c : Nat} : Mem c [(45, 45), (48, 57)] ↔ Digit c ∨ c = 45 := by memtac
theorem mem_esc {c : Nat} : Mem c [(34, 34), (39, 39), (98, 98), (110, 110), (114, 114), (116, 116)] ↔ c ∈ [34, 39, 110, 116, 98, 114] := by memtac
theorem mem_quote {c : Nat} : Mem c [(0, 38), (40, 255)] ↔ c ≠ 39 ∧ c ≤ 255 := by memtac
theorem mem_body {c : Nat} : Mem c [(0, 39), (41, 41), (43, 255)] ↔ c ≠ 40 ∧ c ≠ 42 ∧ c ≤ 255 := by memtac
theorem mem_ws {c : Nat} : Mem c [(9, 10), (32, 32)] ↔ c ∈ [32, 9, 10] := by memtac

theorem lang_id {v : List Nat} : Lang idRe v ↔ Identifier v := by
  unfold idRe
  simp only [lang_seq, lang_chars, lang_star_chars, mem_letter, mem_idc]
  constructor
  · rintro ⟨_, w, rfl, ⟨c, rfl, h1⟩, h2⟩
    exact ⟨c, w, rfl, h1, h2⟩
  · rintro ⟨c, w, rfl, h1, h2⟩
    exact ⟨[c], w, rfl, ⟨c, rfl, h1⟩, h2⟩

theorem lang_int {v : List Nat} : Lang intRe v ↔ Integer v := by
  unfold intRe
  simp only [lang_seq, lang_alt, lang_opt, one, lang_chars, lang_star_chars, mem_digit, mem_digplus, mem_hex, mem_hexu, mem_oct, mem_octu, mem_bin,
    mem_binu, mem_x, mem_o, mem_b]
  constructor
  · rintro ⟨s, n, rfl, hs, ⟨_, w, rfl, ⟨d, rfl, h1⟩, h2⟩ | ⟨_, _, rfl, rfl, h⟩⟩
    · exact ⟨s, d :: w, rfl, hs, .inl ⟨d, w, rfl, h1, h2⟩⟩
    · refine ⟨s, _, rfl, hs, .inr ?_⟩
      rcases h with (⟨_, w, rfl, ⟨_, _, rfl, ⟨x, rfl, h1⟩, d, rfl, h2⟩, h3⟩ | ⟨_, w, rfl, ⟨_, _, rfl, ⟨x, rfl, h1⟩, d, rfl, h2⟩, h3⟩) |
        ⟨_, w, rfl, ⟨_, _, rfl, ⟨x, rfl, h1⟩, d, rfl, h2⟩, h3⟩
      · exact ⟨x, d, w, rfl, .inl ⟨h1, h2, h3⟩⟩
      · exact ⟨x, d, w, rfl, .inr (.inl ⟨h1, h2, h3⟩)⟩
      · exact ⟨x, d, w, rfl, .inr (.inr ⟨h1, h2, h3⟩)⟩
  · rintro ⟨s, n, rfl, hs, ⟨d, w, rfl, h1, h2⟩ | ⟨x, d, w, rfl, h⟩⟩
    · exact ⟨s, _, rfl, hs, .inl ⟨[d], w, rfl, ⟨d, rfl, h1⟩, h2⟩⟩
    · refine ⟨s, _, rfl, hs, .inr ⟨[48], x :: d :: w, rfl, rfl, ?_⟩⟩
      rcases h with ⟨h1, h2, h3⟩ | ⟨h1, h2, h3⟩ | ⟨h1, h2, h3⟩
      · exact .inl (.inl ⟨[x, d], w, rfl, ⟨[x], [d], rfl, ⟨x, rfl, h1⟩, d, rfl, h2⟩, h3⟩)
      · exact .inl (.inr ⟨[x, d], w, rfl, ⟨[x], [d], rfl, ⟨x, rfl, h1⟩, d, rfl, h2⟩, h3⟩)
      · exact .inr ⟨[x, d], w, rfl, ⟨[x], [d], rfl, ⟨x, rfl, h1⟩, d, rfl, h2⟩, h3⟩

theorem lang_float {v : List Nat} : Lang floatRe v ↔ Spec.Ocaml.Float v := by
  unfold floatRe
  simp only [lang_seq, lang_opt, one, lang_chars, lang_star_chars, mem_digit, mem_digu, mem_frac, mem_e, mem_pm]
  constructor
  · rintro ⟨_, e, rfl, ⟨_, f, rfl, ⟨_, w, rfl, ⟨s, _, rfl, hs, d, rfl, hd⟩, hw⟩, hf⟩, he⟩
    refine ⟨s, d, w, f, e, rfl, hs, hd, hw, ?_, ?_⟩
    · rcases hf with rfl | ⟨_, _, rfl, rfl, c, rfl, h⟩
      · exact .inl rfl
      · exact .inr ⟨c, rfl, h⟩
    · rcases he with rfl | ⟨_, w, rfl, ⟨_, _, rfl, ⟨_, s, rfl, ⟨m, rfl, hm⟩, hs⟩, d, rfl, hd⟩, hw⟩
      · exact .inl rfl
      · refine .inr ⟨m, s, d, w, rfl, hm, ?_, hd, hw⟩
        rcases hs with rfl | ⟨c, rfl, rfl | rfl⟩
        · exact .inl rfl
        · exact .inr (.inl rfl)
        · exact .inr (.inr rfl)
  · rintro ⟨s, d, w, f, e, rfl, hs, hd, hw, hf, he⟩
    refine ⟨_, e, rfl, ⟨_, f, rfl, ⟨_, w, rfl, ⟨s, _, rfl, hs, d, rfl, hd⟩, hw⟩, ?_⟩, ?_⟩
    · rcases hf with rfl | ⟨c, rfl, h⟩
      · exact .inl rfl
      · exact .inr ⟨[46], [c], rfl, rfl, c, rfl, h⟩
    · rcases he with rfl | ⟨m, s, d, w, rfl, hm, hs, hd, hw⟩
      · exact .inl rfl
      · refine .inr ⟨_, w, rfl, ⟨_, _, rfl, ⟨_, s, rfl, ⟨m, rfl, hm⟩, ?_⟩, d, rfl, hd⟩, hw⟩
        rcases hs with rfl | rfl | rfl
        · exact .inl rfl
        · exact .inr ⟨43, rfl, .inl rfl⟩
        · exact .inr ⟨45, rfl, .inr rfl⟩

theorem lang_esc {v : List Nat} : Lang escRe v ↔ Escape v := by
  unfold escRe
  simp only [lang_seq, lang_alt, one, lang_chars, lang_rep_chars, mem_esc, mem_digit, mem_hex]
  constructor
  · rintro ((h | ⟨h1, h2⟩) | ⟨_, q, rfl, rfl, h1, h2⟩)
    · exact .inl h
    · match v, h1 with
      | [a, b, c], _ => exact .inr (.inl ⟨a, b, c, rfl, h2 a (by simp), h2 b (by simp), h2 c (by simp)⟩)
    · match q, h1 with
      | [a, b], _ => exact .inr (.inr ⟨a, b, rfl, h2 a (by simp), h2 b (by simp)⟩)
  · rintro (h | ⟨a, b, c, rfl, h1, h2, h3⟩ | ⟨a, b, rfl, h1, h2⟩)
    · exact .inl (.inl h)
    · refine .inl (.inr ⟨rfl, fun d hd => ?_⟩)
      simp only [List.mem_cons, List.not_mem_nil, or_false] at hd
      rcases hd with rfl | rfl | rfl <;> assumption
    · refine .inr ⟨[120], [a, b], rfl, rfl, rfl, fun d hd => ?_⟩
      simp only [List.mem_cons, List.not_mem_nil, or_false] at hd
      rcases hd with rfl | rfl <;> assumption

theorem lang_char {v : List Nat} : Lang charRe v ↔ Spec.Ocaml.Char v := by
  unfold charRe
  simp only [lang_seq, lang_alt, one, lang_esc, lang_chars, mem_quote]
  constructor
  · rintro (⟨_, _, rfl, rfl, c, rfl, h⟩ | ⟨e, _, rfl, h, rfl⟩)
    · exact .inl ⟨c, rfl, h⟩
    · exact .inr ⟨e, rfl, h⟩
  · rintro (⟨c, rfl, h⟩ | ⟨e, rfl, h⟩)
    · exact .inl ⟨[39], [c], rfl, rfl, c, rfl, h⟩
    · exact .inr ⟨e, _, rfl, h, rfl⟩

/-- An expression for a text. -/
def litRe : Re → List Nat → Re
  | r, [] => r
  | r, c :: w => litRe (.seq r (.chars [(c, c)])) w

theorem lang_lit : ∀ (w : List Nat) (r : Re) (u v : List Nat), (∀ v, Lang r v ↔ v = u) → (Lang (litRe r w) v ↔ v = u ++ w)
  | [], r, u, v, h => by rw [litRe, h, List.append_nil]
  | c :: w, r, u, v, h => by
    rw [litRe, lang_lit w _ (u ++ [c]) v, List.append_assoc, List.singleton_append]
    intro v
    simp only [lang_chars, lang_seq, one]
    constructor
    · rintro ⟨x, _, rfl, hx, rfl⟩
      rw [(h x).1 hx]
    · rintro rfl
      exact ⟨u, [c], rfl, (h u).2 rfl, rfl⟩

theorem literally_eq : literally = 40 :: [91, 94, 34, 93, 124, 123, 69, 83, 67, 65, 80, 69, 95, 83, 69, 81, 85, 69, 78, 67, 69, 125, 41, 42] := by decide

theorem lang_str {v : List Nat} : Lang strRe v ↔ v = literally := by
  rw [literally_eq]
  exact lang_lit [91, 94, 34, 93, 124, 123, 69, 83, 67, 65, 80, 69, 95, 83, 69, 81, 85, 69, 78, 67, 69, 125, 41, 42] (.chars [(40, 40)]) [40] v fun _ => chr

theorem lang_infix {v : List Nat} : Lang infixRe v ↔ Infix v := by
  unfold infixRe opRe
  simp only [lang_seq, lang_chars, lang_star_chars, mem_infix, mem_op]
  constructor
  · rintro ⟨_, w, rfl, ⟨c, rfl, h1⟩, h2⟩
    exact ⟨c, w, rfl, h1, h2⟩
  · rintro ⟨c, w, rfl, h1, h2⟩
    exact ⟨[c], w, rfl, ⟨c, rfl, h1⟩, h2⟩

theorem lang_prefix {v : List Nat} : Lang prefixRe v ↔ Prefix v := by
  unfold prefixRe opRe
  simp only [lang_seq, lang_chars, lang_star_chars, mem_prefix, mem_op]
  constructor
  · rintro ⟨_, w, rfl, ⟨c, rfl, h1⟩, h2⟩
    exact ⟨c, w, rfl, h1, h2⟩
  · rintro ⟨c, w, rfl, h1, h2⟩
    exact ⟨[c], w, rfl, ⟨c, rfl, h1⟩, h2⟩

theorem lang_opc {v : List Nat} : Lang opcRe v ↔ Operator v := by
  unfold opcRe opRe
  simp only [lang_chars, mem_op, Operator]

theorem lang_dir {v : List Nat} : Lang dirRe v ↔ Directive v := by
  have : dirRe = .seq (.seq (.chars [(35, 35)]) (.plus (.chars [(48, 57)]) false)) (.opt strRe false) := rfl
  rw [this]
  simp only [lang_chars, lang_seq, lang_opt, one, lang_plus, lang_str, mem_digit]
  constructor
  · rintro ⟨_, q, rfl, ⟨_, ds, rfl, rfl, h1⟩, h2⟩
    exact ⟨ds, q, rfl, h1, h2⟩
  · rintro ⟨ds, q, rfl, h1, h2⟩
    exact ⟨_, q, rfl, ⟨_, ds, rfl, rfl, h1⟩, h2⟩

theorem lang_open {v : List Nat} : Lang openRe v ↔ v = [40, 42] := by
  unfold openRe
  simp only [lang_chars, lang_seq, one]
  constructor
  · rintro ⟨_, _, rfl, rfl, rfl⟩; rfl
  · rintro rfl; exact ⟨[40], [42], rfl, rfl, rfl⟩

theorem lang_close {v : List Nat} : Lang closeRe v ↔ v = [42, 41] := by
  unfold closeRe
  simp only [lang_chars, lang_seq, one]
  constructor
  · rintro ⟨_, _, rfl, rfl, rfl⟩; rfl
  · rintro rfl; exact ⟨[42], [41], rfl, rfl, rfl⟩

/-- Text inside comments. -/
def Body (v : List Nat) : Prop := ((v ≠ [] ∧ ∀ c ∈ v, c ≠ 40 ∧ c ≠ 42 ∧ c ≤ 255) ∨ v = [40]) ∨ v = [42]

def Blanks (v : List Nat) : Prop := v ≠ [] ∧ ∀ c ∈ v, c ∈ [32, 9, 10]

theorem lang_body {v : List Nat} : Lang bodyRe v ↔ Body v := by
  unfold bodyRe Body
  simp only [lang_chars, lang_alt, one, lang_plus, mem_body]

theorem lang_ws {v : List Nat} : Lang wsRe v ↔ Blanks v := by
  unfold wsRe Blanks
  simp only [lang_plus, mem_ws]

/-! ### Rows -/

/-- The rules `xs` match the texts `Ps`. -/
def Match (xs : List SRule) (Ps : List (List Nat → Prop)) : Prop :=
  ∀ (j : Nat) (x : SRule) (P : List Nat → Prop), xs[j]? = some x → Ps[j]? = some P → ∀ (b : Bool) (v : List Nat), LineMatch b x.2 (v.map .ch) ↔ P v

theorem match_nil {Ps : List (List Nat → Prop)} : Match [] Ps := by
  intro j x P h
  simp at h

theorem match_cons {re : Re} {id next push : Nat} {pop : Bool} {xs : List SRule} {P : List Nat → Prop} {Ps : List (List Nat → Prop)}
    (hb : re.noBol = true) (h : ∀ v, Lang re v ↔ P v) (hs : Match xs Ps) : Match (ruleOf re id 65535 next push pop :: xs) (P :: Ps) := by
  intro j x Q hx hP b v
  cases j with
  | zero =>
    simp only [List.getElem?_cons_zero, Option.some.injEq] at hx hP
    subst hx
    subst hP
    rw [← h v]
    exact line_noBol (e := some re) hb _
  | succ j =>
    simp only [List.getElem?_cons_succ] at hx hP
    exact hs j x Q hx hP b v

def texts0 : List (List Nat → Prop) := Spec.Ocaml.kinds.map (·.2) ++ [(· = [40, 42]), Blanks]
def texts1 : List (List Nat → Prop) := [(· = [40, 42]), (· = [42, 41]), Body]

theorem match0 : Match row0 texts0 :=
  match_cons rfl (fun _ => lang_id) <| match_cons rfl (fun _ => lang_int) <| match_cons rfl (fun _ => lang_float) <| match_cons rfl (fun _ => lang_char) <|
  match_cons rfl (fun _ => lang_str) <| match_cons rfl (fun _ => lang_infix) <| match_cons rfl (fun _ => lang_prefix) <|
  match_cons rfl (fun _ => lang_opc) <| match_cons rfl (fun _ => lang_dir) <| match_cons rfl (fun _ => lang_open) <| match_cons rfl (fun _ => lang_ws) match_nil

theorem match1 : Match row1 texts1 :=
  match_cons rfl (fun _ => lang_open) <| match_cons rfl (fun _ => lang_close) <| match_cons rfl (fun _ => lang_body) match_nil

end Lexertl.Ocaml

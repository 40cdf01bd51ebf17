import Verif.Proofs.CalcLex
import Verif.Model.Ocaml

/-
The rules of the OCaml example, and what their texts mean.
-/
namespace Lexertl.Ocaml
open Spec Reading Props

/-! ### Expressions -/

def escRe : Re := .alt (.alt (.chars [(34, 34), (39, 39), (98, 98), (110, 110), (114, 114), (116, 116)]) (.rep (.chars [(48, 57)]) 3 (some 3) false)) (.seq (.chars [(120, 120)]) (.rep (.chars [(48, 57), (65, 70), (97, 102)]) 2 (some 2) false))

def opRe : Re := .chars [(33, 33), (36, 38), (42, 43), (45, 47), (58, 58), (60, 64), (94, 94), (124, 124), (126, 126)]

def idRe : Re := .seq (.chars [(65, 90), (95, 95), (97, 122)]) (.star (.chars [(39, 39), (48, 57), (65, 90), (95, 95), (97, 122)]) false)

def intRe : Re := .seq (.opt (.chars [(45, 45)]) false) (.alt (.seq (.chars [(48, 57)]) (.star (.chars [(43, 43), (48, 57)]) false)) (.seq (.chars [(48, 48)]) (.alt (.alt (.seq (.seq (.chars [(88, 88), (120, 120)]) (.chars [(48, 57), (65, 70), (97, 102)])) (.star (.chars [(48, 57), (65, 70), (95, 95), (97, 102)]) false)) (.seq (.seq (.chars [(79, 79), (111, 111)]) (.chars [(48, 55)])) (.star (.chars [(48, 55), (95, 95)]) false))) (.seq (.seq (.chars [(66, 66), (98, 98)]) (.chars [(48, 49)])) (.star (.chars [(48, 49), (95, 95)]) false)))))

def floatRe : Re := .seq (.seq (.seq (.seq (.opt (.chars [(45, 45)]) false) (.chars [(48, 57)])) (.star (.chars [(48, 57), (95, 95)]) false)) (.opt (.seq (.chars [(46, 46)]) (.chars [(45, 45), (48, 57)])) false)) (.opt (.seq (.seq (.seq (.chars [(69, 69), (101, 101)]) (.opt (.chars [(43, 43), (45, 45)]) false)) (.chars [(48, 57)])) (.star (.chars [(48, 57), (95, 95)]) false)) false)

def charRe : Re := .alt (.seq (.chars [(39, 39)]) (.chars [(0, 38), (40, 255)])) (.seq escRe (.chars [(39, 39)]))

def strRe : Re := .seq (.seq (.seq (.seq (.seq (.seq (.seq (.seq (.seq (.seq (.seq (.seq (.seq (.seq (.seq (.seq (.seq (.seq (.seq (.seq (.seq (.seq (.seq (.seq (.chars [(40, 40)]) (.chars [(91, 91)])) (.chars [(94, 94)])) (.chars [(34, 34)])) (.chars [(93, 93)])) (.chars [(124, 124)])) (.chars [(123, 123)])) (.chars [(69, 69)])) (.chars [(83, 83)])) (.chars [(67, 67)])) (.chars [(65, 65)])) (.chars [(80, 80)])) (.chars [(69, 69)])) (.chars [(95, 95)])) (.chars [(83, 83)])) (.chars [(69, 69)])) (.chars [(81, 81)])) (.chars [(85, 85)])) (.chars [(69, 69)])) (.chars [(78, 78)])) (.chars [(67, 67)])) (.chars [(69, 69)])) (.chars [(125, 125)])) (.chars [(41, 41)])) (.chars [(42, 42)])

def infixRe : Re := .seq (.chars [(36, 38), (42, 43), (45, 45), (47, 47), (60, 62), (64, 64), (94, 94), (124, 124)]) (.star opRe false)

def prefixRe : Re := .seq (.chars [(33, 33), (63, 63), (126, 126)]) (.star opRe false)

def opcRe : Re := opRe

def dirRe : Re := .seq (.seq (.chars [(35, 35)]) (.plus (.chars [(48, 57)]) false)) (.opt (.seq (.seq (.seq (.seq (.seq (.seq (.seq (.seq (.seq (.seq (.seq (.seq (.seq (.seq (.seq (.seq (.seq (.seq (.seq (.seq (.seq (.seq (.seq (.seq (.chars [(40, 40)]) (.chars [(91, 91)])) (.chars [(94, 94)])) (.chars [(34, 34)])) (.chars [(93, 93)])) (.chars [(124, 124)])) (.chars [(123, 123)])) (.chars [(69, 69)])) (.chars [(83, 83)])) (.chars [(67, 67)])) (.chars [(65, 65)])) (.chars [(80, 80)])) (.chars [(69, 69)])) (.chars [(95, 95)])) (.chars [(83, 83)])) (.chars [(69, 69)])) (.chars [(81, 81)])) (.chars [(85, 85)])) (.chars [(69, 69)])) (.chars [(78, 78)])) (.chars [(67, 67)])) (.chars [(69, 69)])) (.chars [(125, 125)])) (.chars [(41, 41)])) (.chars [(42, 42)])) false)

def openRe : Re := .seq (.chars [(40, 40)]) (.chars [(42, 42)])

def closeRe : Re := .seq (.chars [(42, 42)]) (.chars [(41, 41)])

def bodyRe : Re := .alt (.alt (.plus (.chars [(0, 39), (41, 41), (43, 255)]) false) (.chars [(40, 40)])) (.chars [(42, 42)])

def wsRe : Re := .plus (.chars [(9, 10), (32, 32)]) false

def macros : List (List Nat × Re) := [(chars "OPERATOR_CHAR", opRe), (chars "ESCAPE_SEQUENCE", escRe)]

theorem find_ESCAPE_SEQUENCE : find (chars "ESCAPE_SEQUENCE") macros = some escRe := rfl
theorem find_OPERATOR_CHAR : find (chars "OPERATOR_CHAR") macros = some opRe := rfl

/-- The rules of the two lexer states. -/
def row0 : List SRule :=
  [ruleOf idRe 1 65535 0 65535 false, ruleOf intRe 2 65535 0 65535 false, ruleOf floatRe 3 65535 0 65535 false, ruleOf charRe 4 65535 0 65535 false, ruleOf strRe 5 65535 0 65535 false, ruleOf infixRe 8 65535 0 65535 false, ruleOf prefixRe 9 65535 0 65535 false, ruleOf opcRe 10 65535 0 65535 false, ruleOf dirRe 11 65535 0 65535 false,
   ruleOf openRe 0 65535 1 0 false, ruleOf wsRe 65534 65535 0 65535 false]

def row1 : List SRule :=
  [ruleOf openRe 0 65535 1 1 false, ruleOf closeRe 12 65535 65535 65535 true, ruleOf bodyRe 0 65535 1 65535 false]

def xss : List (List SRule) := [row0, row1]

/-! ### Reading the texts -/

abbrev Rd (s : Bool) (fs : List ReFlags) (b : Bool) (w : List Nat) (ls : List Lx) : Prop := Spec.Reads Ex.env s {} fs b w ls

theorem rd_char {s : Bool} {fs : List ReFlags} {w : List Nat} {ls : List Lx} (c : Nat) (hc : c ∉ metaChars) (h : Rd false fs false w ls) :
    Rd s fs false (c :: w) (.chars [(c, c)] :: ls) :=
  .atom s {} fs false [c] _ _ w ls (.plain _ _ _ hc (by simp)) (Ex.isSet_chr c) h

theorem rd_esc {s : Bool} {fs : List ReFlags} {w : List Nat} {ls : List Lx} (c : Nat) (h1 : ¬ IsOct c) (h2 : c ∉ namedEscapes.map (·.1))
    (h3 : c ∉ [99, 120, 100, 68, 115, 83, 119, 87, 112]) (h : Rd false fs false w ls) : Rd s fs false (92 :: c :: w) (.chars [(c, c)] :: ls) :=
  .atom s {} fs false [92, c] _ _ w ls (.esc _ _ [c] c _ (.self c _ h1 h2 h3)) (Ex.isSet_chr c) h

theorem rd_qesc {s : Bool} {fs : List ReFlags} {w : List Nat} {ls : List Lx} (c : Nat) (h1 : ¬ IsOct c) (h2 : c ∉ namedEscapes.map (·.1))
    (h3 : c ∉ [99, 120, 100, 68, 115, 83, 119, 87, 112]) (h : Rd false fs true w ls) : Rd s fs true (92 :: c :: w) (.chars [(c, c)] :: ls) :=
  .atom s {} fs true [92, c] _ _ w ls (.esc _ _ [c] c _ (.self c _ h1 h2 h3)) (Ex.isSet_chr c) h

theorem rd_qchr {s : Bool} {fs : List ReFlags} {w : List Nat} {ls : List Lx} (c : Nat) (h1 : c ≠ 34) (h2 : c ≠ 92) (h : Rd false fs true w ls) :
    Rd s fs true (c :: w) (.chars [(c, c)] :: ls) :=
  .atom s {} fs true [c] _ _ w ls (.quoted _ _ _ h1 h2) (Ex.isSet_chr c) h

theorem rd_digit {s : Bool} {fs : List ReFlags} {w : List Nat} {ls : List Lx} (h : Rd false fs false w ls) :
    Rd s fs false (92 :: 100 :: w) (.chars [(48, 57)] :: ls) :=
  .atom s {} fs false [92, 100] _ _ w ls (.short _ _ 100 _ _ .digit ⟨48, .inl (by decide)⟩) Calc.isSet_digit h

theorem rd_mac {s : Bool} {fs : List ReFlags} {w : List Nat} {ls : List Lx} (name : List Nat) {name' : List Nat} (hn : name = name') (h : MacroName name')
    (hw : Rd false fs false w ls) : Rd s fs false (123 :: name ++ 125 :: w) (.mac name' :: ls) := by
  subst hn
  exact .mac _ _ _ name w ls h hw

/-- The text in brackets, after the first, means the charset. -/
def SetText (body : List Nat) (t : List (Nat × Nat)) : Prop := ∃ S, Brackets Ex.env false .whole body S [] ∧ IsSet t S

theorem rd_set {s : Bool} {fs : List ReFlags} {body w : List Nat} {t : List (Nat × Nat)} {ls : List Lx} (ht : SetText body t) (h : Rd false fs false w ls) :
    Rd s fs false (91 :: body ++ w) (.chars t :: ls) := by
  obtain ⟨S, h1, h2⟩ := ht
  exact .atom s {} fs false (91 :: body) S t w ls (.set _ _ _ _ h1) h2 h

theorem it_chr (c : Nat) {rest : List Nat} (h1 : c ≠ 92) (h2 : c ≠ 91) (h3 : NoDash rest) : Brackets Ex.env false .item [c] (Closed Ex.env false (· = c)) rest :=
  .char [c] c _ (.self c _ h1 (by simp [h2])) h3

theorem it_esc (c : Nat) {rest : List Nat} (h1 : ¬ IsOct c) (h2 : c ∉ namedEscapes.map (·.1))
    (h3 : c ∉ [99, 120, 100, 68, 115, 83, 119, 87, 112]) (h4 : NoDash rest) :
    Brackets Ex.env false .item [92, c] (Closed Ex.env false (· = c)) rest :=
  .char [92, c] c _ (.esc [c] c _ (.self c _ h1 h2 h3)) h4

theorem it_range (x y : Nat) {rest : List Nat} (h1 : x ∉ [91, 92]) (h2 : y ∉ [91, 92, 93]) (h : x ≤ y) :
    Brackets Ex.env false .item [x, 45, y] (Closed Ex.env false (fun c => x ≤ c ∧ c ≤ y)) rest := by
  simp only [List.mem_cons, List.not_mem_nil, or_false, not_or] at h1 h2
  exact .range [x] x [y] y rest (.self x _ h1.2 (by simp [h1.1])) (.self y _ h2.2.1 (by simp [h2.1])) (by simp [h2.2.2]) h

theorem closed_iff {S : Nat → Prop} {c : Nat} : Closed Ex.env false S c ↔ S c := by simp [Closed]

theorem mac_ESCAPE_SEQUENCE : MacroName (chars "ESCAPE_SEQUENCE") := by
  refine ⟨⟨69, rfl, by decide⟩, ?_⟩
  decide

theorem mac_OPERATOR_CHAR : MacroName (chars "OPERATOR_CHAR") := by
  refine ⟨⟨79, rfl, by decide⟩, ?_⟩
  decide

local macro "charset" : tactic => `(tactic| (
      refine ⟨⟨by decide, by decide⟩, fun c => ?_⟩
      simp only [Mem, Compl, show Ex.env.max = 255 from rfl, closed_iff, List.mem_cons, List.not_mem_nil, or_false, exists_eq_or_imp, exists_eq_left]
      try omega))

theorem set0 : SetText [92, 34, 39, 110, 116, 98, 114, 93] [(34, 34), (39, 39), (98, 98), (110, 110), (114, 114), (116, 116)] := by
  refine ⟨_, .pos _ _ (by decide) (.more true [92, 34] _ [39, 110, 116, 98, 114, 93] _ (.inl rfl) (it_esc 34 (by decide) (by decide) (by decide) (by decide))
    (.more false [39] _ [110, 116, 98, 114, 93] _ (.inr (by decide)) (it_chr 39 (by decide) (by decide) (by decide))
    (.more false [110] _ [116, 98, 114, 93] _ (.inr (by decide)) (it_chr 110 (by decide) (by decide) (by decide))
    (.more false [116] _ [98, 114, 93] _ (.inr (by decide)) (it_chr 116 (by decide) (by decide) (by decide))
    (.more false [98] _ [114, 93] _ (.inr (by decide)) (it_chr 98 (by decide) (by decide) (by decide))
    (.last false [114] _ (.inr (by decide)) (it_chr 114 (by decide) (by decide) (by decide)))))))) ⟨34, .inl (.inl (rfl))⟩, ?_⟩
  charset

theorem set1 : SetText [48, 45, 57, 93] [(48, 57)] := by
  refine ⟨_, .pos _ _ (by decide) (.last true [48, 45, 57] _ (.inl rfl) (it_range 48 57 (by decide) (by decide) (by decide))) ⟨48, .inl (by decide)⟩, ?_⟩
  charset

theorem set2 : SetText [48, 45, 57, 65, 45, 70, 97, 45, 102, 93] [(48, 57), (65, 70), (97, 102)] := by
  refine ⟨_, .pos _ _ (by decide) (.more true [48, 45, 57] _ [65, 45, 70, 97, 45, 102, 93] _ (.inl rfl) (it_range 48 57 (by decide) (by decide) (by decide))
    (.more false [65, 45, 70] _ [97, 45, 102, 93] _ (.inr (by decide)) (it_range 65 70 (by decide) (by decide) (by decide))
    (.last false [97, 45, 102] _ (.inr (by decide)) (it_range 97 102 (by decide) (by decide) (by decide))))) ⟨48, .inl (.inl (by decide))⟩, ?_⟩
  charset

theorem set3 : SetText [45, 33, 36, 37, 38, 42, 43, 46, 47, 58, 60, 61, 62, 63, 64, 94, 124, 126, 93] [(33, 33), (36, 38), (42, 43), (45, 47), (58, 58), (60, 64), (94, 94), (124, 124), (126, 126)] := by
  refine ⟨_, .pos _ _ (by decide) (.more true [45] _ [33, 36, 37, 38, 42, 43, 46, 47, 58, 60, 61, 62, 63, 64, 94, 124, 126, 93] _ (.inl rfl) (it_chr 45 (by decide) (by decide) (by decide))
    (.more false [33] _ [36, 37, 38, 42, 43, 46, 47, 58, 60, 61, 62, 63, 64, 94, 124, 126, 93] _ (.inr (by decide)) (it_chr 33 (by decide) (by decide) (by decide))
    (.more false [36] _ [37, 38, 42, 43, 46, 47, 58, 60, 61, 62, 63, 64, 94, 124, 126, 93] _ (.inr (by decide)) (it_chr 36 (by decide) (by decide) (by decide))
    (.more false [37] _ [38, 42, 43, 46, 47, 58, 60, 61, 62, 63, 64, 94, 124, 126, 93] _ (.inr (by decide)) (it_chr 37 (by decide) (by decide) (by decide))
    (.more false [38] _ [42, 43, 46, 47, 58, 60, 61, 62, 63, 64, 94, 124, 126, 93] _ (.inr (by decide)) (it_chr 38 (by decide) (by decide) (by decide))
    (.more false [42] _ [43, 46, 47, 58, 60, 61, 62, 63, 64, 94, 124, 126, 93] _ (.inr (by decide)) (it_chr 42 (by decide) (by decide) (by decide))
    (.more false [43] _ [46, 47, 58, 60, 61, 62, 63, 64, 94, 124, 126, 93] _ (.inr (by decide)) (it_chr 43 (by decide) (by decide) (by decide))
    (.more false [46] _ [47, 58, 60, 61, 62, 63, 64, 94, 124, 126, 93] _ (.inr (by decide)) (it_chr 46 (by decide) (by decide) (by decide))
    (.more false [47] _ [58, 60, 61, 62, 63, 64, 94, 124, 126, 93] _ (.inr (by decide)) (it_chr 47 (by decide) (by decide) (by decide))
    (.more false [58] _ [60, 61, 62, 63, 64, 94, 124, 126, 93] _ (.inr (by decide)) (it_chr 58 (by decide) (by decide) (by decide))
    (.more false [60] _ [61, 62, 63, 64, 94, 124, 126, 93] _ (.inr (by decide)) (it_chr 60 (by decide) (by decide) (by decide))
    (.more false [61] _ [62, 63, 64, 94, 124, 126, 93] _ (.inr (by decide)) (it_chr 61 (by decide) (by decide) (by decide))
    (.more false [62] _ [63, 64, 94, 124, 126, 93] _ (.inr (by decide)) (it_chr 62 (by decide) (by decide) (by decide))
    (.more false [63] _ [64, 94, 124, 126, 93] _ (.inr (by decide)) (it_chr 63 (by decide) (by decide) (by decide))
    (.more false [64] _ [94, 124, 126, 93] _ (.inr (by decide)) (it_chr 64 (by decide) (by decide) (by decide))
    (.more false [94] _ [124, 126, 93] _ (.inr (by decide)) (it_chr 94 (by decide) (by decide) (by decide))
    (.more false [124] _ [126, 93] _ (.inr (by decide)) (it_chr 124 (by decide) (by decide) (by decide))
    (.last false [126] _ (.inr (by decide)) (it_chr 126 (by decide) (by decide) (by decide)))))))))))))))))))) ⟨45, .inl (.inl (rfl))⟩, ?_⟩
  charset

theorem set4 : SetText [65, 45, 90, 97, 45, 122, 95, 93] [(65, 90), (95, 95), (97, 122)] := by
  refine ⟨_, .pos _ _ (by decide) (.more true [65, 45, 90] _ [97, 45, 122, 95, 93] _ (.inl rfl) (it_range 65 90 (by decide) (by decide) (by decide))
    (.more false [97, 45, 122] _ [95, 93] _ (.inr (by decide)) (it_range 97 122 (by decide) (by decide) (by decide))
    (.last false [95] _ (.inr (by decide)) (it_chr 95 (by decide) (by decide) (by decide))))) ⟨65, .inl (.inl (by decide))⟩, ?_⟩
  charset

theorem set5 : SetText [65, 45, 90, 97, 45, 122, 95, 48, 45, 57, 39, 93] [(39, 39), (48, 57), (65, 90), (95, 95), (97, 122)] := by
  refine ⟨_, .pos _ _ (by decide) (.more true [65, 45, 90] _ [97, 45, 122, 95, 48, 45, 57, 39, 93] _ (.inl rfl) (it_range 65 90 (by decide) (by decide) (by decide))
    (.more false [97, 45, 122] _ [95, 48, 45, 57, 39, 93] _ (.inr (by decide)) (it_range 97 122 (by decide) (by decide) (by decide))
    (.more false [95] _ [48, 45, 57, 39, 93] _ (.inr (by decide)) (it_chr 95 (by decide) (by decide) (by decide))
    (.more false [48, 45, 57] _ [39, 93] _ (.inr (by decide)) (it_range 48 57 (by decide) (by decide) (by decide))
    (.last false [39] _ (.inr (by decide)) (it_chr 39 (by decide) (by decide) (by decide))))))) ⟨65, .inl (.inl (by decide))⟩, ?_⟩
  charset

theorem set6 : SetText [48, 45, 57, 43, 93] [(43, 43), (48, 57)] := by
  refine ⟨_, .pos _ _ (by decide) (.more true [48, 45, 57] _ [43, 93] _ (.inl rfl) (it_range 48 57 (by decide) (by decide) (by decide))
    (.last false [43] _ (.inr (by decide)) (it_chr 43 (by decide) (by decide) (by decide)))) ⟨48, .inl (.inl (by decide))⟩, ?_⟩
  charset

theorem set7 : SetText [120, 88, 93] [(88, 88), (120, 120)] := by
  refine ⟨_, .pos _ _ (by decide) (.more true [120] _ [88, 93] _ (.inl rfl) (it_chr 120 (by decide) (by decide) (by decide))
    (.last false [88] _ (.inr (by decide)) (it_chr 88 (by decide) (by decide) (by decide)))) ⟨120, .inl (.inl (rfl))⟩, ?_⟩
  charset

theorem set8 : SetText [48, 45, 57, 65, 45, 70, 97, 45, 102, 95, 93] [(48, 57), (65, 70), (95, 95), (97, 102)] := by
  refine ⟨_, .pos _ _ (by decide) (.more true [48, 45, 57] _ [65, 45, 70, 97, 45, 102, 95, 93] _ (.inl rfl) (it_range 48 57 (by decide) (by decide) (by decide))
    (.more false [65, 45, 70] _ [97, 45, 102, 95, 93] _ (.inr (by decide)) (it_range 65 70 (by decide) (by decide) (by decide))
    (.more false [97, 45, 102] _ [95, 93] _ (.inr (by decide)) (it_range 97 102 (by decide) (by decide) (by decide))
    (.last false [95] _ (.inr (by decide)) (it_chr 95 (by decide) (by decide) (by decide)))))) ⟨48, .inl (.inl (by decide))⟩, ?_⟩
  charset

theorem set9 : SetText [111, 79, 93] [(79, 79), (111, 111)] := by
  refine ⟨_, .pos _ _ (by decide) (.more true [111] _ [79, 93] _ (.inl rfl) (it_chr 111 (by decide) (by decide) (by decide))
    (.last false [79] _ (.inr (by decide)) (it_chr 79 (by decide) (by decide) (by decide)))) ⟨111, .inl (.inl (rfl))⟩, ?_⟩
  charset

theorem set10 : SetText [48, 45, 55, 93] [(48, 55)] := by
  refine ⟨_, .pos _ _ (by decide) (.last true [48, 45, 55] _ (.inl rfl) (it_range 48 55 (by decide) (by decide) (by decide))) ⟨48, .inl (by decide)⟩, ?_⟩
  charset

theorem set11 : SetText [48, 45, 55, 95, 93] [(48, 55), (95, 95)] := by
  refine ⟨_, .pos _ _ (by decide) (.more true [48, 45, 55] _ [95, 93] _ (.inl rfl) (it_range 48 55 (by decide) (by decide) (by decide))
    (.last false [95] _ (.inr (by decide)) (it_chr 95 (by decide) (by decide) (by decide)))) ⟨48, .inl (.inl (by decide))⟩, ?_⟩
  charset

theorem set12 : SetText [98, 66, 93] [(66, 66), (98, 98)] := by
  refine ⟨_, .pos _ _ (by decide) (.more true [98] _ [66, 93] _ (.inl rfl) (it_chr 98 (by decide) (by decide) (by decide))
    (.last false [66] _ (.inr (by decide)) (it_chr 66 (by decide) (by decide) (by decide)))) ⟨98, .inl (.inl (rfl))⟩, ?_⟩
  charset

theorem set13 : SetText [48, 49, 93] [(48, 49)] := by
  refine ⟨_, .pos _ _ (by decide) (.more true [48] _ [49, 93] _ (.inl rfl) (it_chr 48 (by decide) (by decide) (by decide))
    (.last false [49] _ (.inr (by decide)) (it_chr 49 (by decide) (by decide) (by decide)))) ⟨48, .inl (.inl (rfl))⟩, ?_⟩
  charset

theorem set14 : SetText [48, 49, 95, 93] [(48, 49), (95, 95)] := by
  refine ⟨_, .pos _ _ (by decide) (.more true [48] _ [49, 95, 93] _ (.inl rfl) (it_chr 48 (by decide) (by decide) (by decide))
    (.more false [49] _ [95, 93] _ (.inr (by decide)) (it_chr 49 (by decide) (by decide) (by decide))
    (.last false [95] _ (.inr (by decide)) (it_chr 95 (by decide) (by decide) (by decide))))) ⟨48, .inl (.inl (rfl))⟩, ?_⟩
  charset

theorem set15 : SetText [48, 45, 57, 95, 93] [(48, 57), (95, 95)] := by
  refine ⟨_, .pos _ _ (by decide) (.more true [48, 45, 57] _ [95, 93] _ (.inl rfl) (it_range 48 57 (by decide) (by decide) (by decide))
    (.last false [95] _ (.inr (by decide)) (it_chr 95 (by decide) (by decide) (by decide)))) ⟨48, .inl (.inl (by decide))⟩, ?_⟩
  charset

theorem set16 : SetText [48, 45, 57, 45, 93] [(45, 45), (48, 57)] := by
  refine ⟨_, .pos _ _ (by decide) (.more true [48, 45, 57] _ [45, 93] _ (.inl rfl) (it_range 48 57 (by decide) (by decide) (by decide))
    (.last false [45] _ (.inr (by decide)) (it_chr 45 (by decide) (by decide) (by decide)))) ⟨48, .inl (.inl (by decide))⟩, ?_⟩
  charset

theorem set17 : SetText [101, 69, 93] [(69, 69), (101, 101)] := by
  refine ⟨_, .pos _ _ (by decide) (.more true [101] _ [69, 93] _ (.inl rfl) (it_chr 101 (by decide) (by decide) (by decide))
    (.last false [69] _ (.inr (by decide)) (it_chr 69 (by decide) (by decide) (by decide)))) ⟨101, .inl (.inl (rfl))⟩, ?_⟩
  charset

theorem set18 : SetText [45, 43, 93] [(43, 43), (45, 45)] := by
  refine ⟨_, .pos _ _ (by decide) (.more true [45] _ [43, 93] _ (.inl rfl) (it_chr 45 (by decide) (by decide) (by decide))
    (.last false [43] _ (.inr (by decide)) (it_chr 43 (by decide) (by decide) (by decide)))) ⟨45, .inl (.inl (rfl))⟩, ?_⟩
  charset

theorem set19 : SetText [94, 92, 39, 93] [(0, 38), (40, 255)] := by
  refine ⟨_, .neg _ _ (.last true [92, 39] _ (.inl rfl) (it_esc 39 (by decide) (by decide) (by decide) (by decide))) ⟨120, show (120 : Nat) ≤ 255 by decide, by simp only [closed_iff]; decide⟩, ?_⟩
  charset

theorem set20 : SetText [45, 61, 60, 62, 64, 94, 124, 38, 43, 42, 47, 36, 37, 93] [(36, 38), (42, 43), (45, 45), (47, 47), (60, 62), (64, 64), (94, 94), (124, 124)] := by
  refine ⟨_, .pos _ _ (by decide) (.more true [45] _ [61, 60, 62, 64, 94, 124, 38, 43, 42, 47, 36, 37, 93] _ (.inl rfl) (it_chr 45 (by decide) (by decide) (by decide))
    (.more false [61] _ [60, 62, 64, 94, 124, 38, 43, 42, 47, 36, 37, 93] _ (.inr (by decide)) (it_chr 61 (by decide) (by decide) (by decide))
    (.more false [60] _ [62, 64, 94, 124, 38, 43, 42, 47, 36, 37, 93] _ (.inr (by decide)) (it_chr 60 (by decide) (by decide) (by decide))
    (.more false [62] _ [64, 94, 124, 38, 43, 42, 47, 36, 37, 93] _ (.inr (by decide)) (it_chr 62 (by decide) (by decide) (by decide))
    (.more false [64] _ [94, 124, 38, 43, 42, 47, 36, 37, 93] _ (.inr (by decide)) (it_chr 64 (by decide) (by decide) (by decide))
    (.more false [94] _ [124, 38, 43, 42, 47, 36, 37, 93] _ (.inr (by decide)) (it_chr 94 (by decide) (by decide) (by decide))
    (.more false [124] _ [38, 43, 42, 47, 36, 37, 93] _ (.inr (by decide)) (it_chr 124 (by decide) (by decide) (by decide))
    (.more false [38] _ [43, 42, 47, 36, 37, 93] _ (.inr (by decide)) (it_chr 38 (by decide) (by decide) (by decide))
    (.more false [43] _ [42, 47, 36, 37, 93] _ (.inr (by decide)) (it_chr 43 (by decide) (by decide) (by decide))
    (.more false [42] _ [47, 36, 37, 93] _ (.inr (by decide)) (it_chr 42 (by decide) (by decide) (by decide))
    (.more false [47] _ [36, 37, 93] _ (.inr (by decide)) (it_chr 47 (by decide) (by decide) (by decide))
    (.more false [36] _ [37, 93] _ (.inr (by decide)) (it_chr 36 (by decide) (by decide) (by decide))
    (.last false [37] _ (.inr (by decide)) (it_chr 37 (by decide) (by decide) (by decide))))))))))))))) ⟨45, .inl (.inl (rfl))⟩, ?_⟩
  charset

theorem set21 : SetText [33, 63, 126, 93] [(33, 33), (63, 63), (126, 126)] := by
  refine ⟨_, .pos _ _ (by decide) (.more true [33] _ [63, 126, 93] _ (.inl rfl) (it_chr 33 (by decide) (by decide) (by decide))
    (.more false [63] _ [126, 93] _ (.inr (by decide)) (it_chr 63 (by decide) (by decide) (by decide))
    (.last false [126] _ (.inr (by decide)) (it_chr 126 (by decide) (by decide) (by decide))))) ⟨33, .inl (.inl (rfl))⟩, ?_⟩
  charset

theorem set22 : SetText [94, 40, 42, 93] [(0, 39), (41, 41), (43, 255)] := by
  refine ⟨_, .neg _ _ (.more true [40] _ [42, 93] _ (.inl rfl) (it_chr 40 (by decide) (by decide) (by decide))
    (.last false [42] _ (.inr (by decide)) (it_chr 42 (by decide) (by decide) (by decide)))) ⟨120, show (120 : Nat) ≤ 255 by decide, by simp only [closed_iff]; decide⟩, ?_⟩
  charset

theorem set23 : SetText [32, 9, 10, 93] [(9, 10), (32, 32)] := by
  refine ⟨_, .pos _ _ (by decide) (.more true [32] _ [9, 10, 93] _ (.inl rfl) (it_chr 32 (by decide) (by decide) (by decide))
    (.more false [9] _ [10, 93] _ (.inr (by decide)) (it_chr 9 (by decide) (by decide) (by decide))
    (.last false [10] _ (.inr (by decide)) (it_chr 10 (by decide) (by decide) (by decide))))) ⟨32, .inl (.inl (rfl))⟩, ?_⟩
  charset

/-! ### What the texts mean -/

theorem means_esc : Means Ex.env [] {} (chars "([\\\"'ntbr]|[0-9]{3}|x[0-9A-Fa-f]{2})") escRe := by
  refine ⟨[.opn, .chars [(34, 34), (39, 39), (98, 98), (110, 110), (114, 114), (116, 116)], .bar, .chars [(48, 57)], .rep 3 (some 3) false, .bar, .chars [(120, 120)], .chars [(48, 57), (65, 70), (97, 102)], .rep 2 (some 2) false, .cls], ?_, ?_⟩
  · have h : chars "([\\\"'ntbr]|[0-9]{3}|x[0-9A-Fa-f]{2})" = [40, 91, 92, 34, 39, 110, 116, 98, 114, 93, 124, 91, 48, 45, 57, 93, 123, 51, 125, 124, 120, 91, 48, 45, 57, 65, 45, 70, 97, 45, 102, 93, 123, 50, 125, 41] := by decide
    rw [h]
    refine .opn _ _ _ _ _ (by decide) ?_
    refine rd_set set0 ?_
    refine .bar _ _ _ _ _ ?_
    refine rd_set set1 ?_
    refine .count _ _ _ [51] 3 (some 3) _ _ (.exact [51] (by unfold IsDec; decide) (by decide) (by decide)) (by decide) ?_
    refine .bar _ _ _ _ _ ?_
    refine rd_char 120 (by decide) ?_
    refine rd_set set2 ?_
    refine .count _ _ _ [50] 2 (some 2) _ _ (.exact [50] (by unfold IsDec; decide) (by decide) (by decide)) (by decide) ?_
    exact .cls _ _ _ _ _ _ (.done _ _)
  · exact .alt1 _ _ (.seq1 _ _ (.item _ _ (.paren [.chars [(34, 34), (39, 39), (98, 98), (110, 110), (114, 114), (116, 116)], .bar, .chars [(48, 57)], .rep 3 (some 3) false, .bar, .chars [(120, 120)], .chars [(48, 57), (65, 70), (97, 102)], .rep 2 (some 2) false] _ (.alt [.chars [(34, 34), (39, 39), (98, 98), (110, 110), (114, 114), (116, 116)], .bar, .chars [(48, 57)], .rep 3 (some 3) false] [.chars [(120, 120)], .chars [(48, 57), (65, 70), (97, 102)], .rep 2 (some 2) false] _ _
      (.alt [.chars [(34, 34), (39, 39), (98, 98), (110, 110), (114, 114), (116, 116)]] [.chars [(48, 57)], .rep 3 (some 3) false] _ _
      (.alt1 _ _ (.seq1 _ _ (.item _ _ (.set _ _ (.chars _)))))
      (.seq1 _ _ (.rep [.chars [(48, 57)]] _ 3 (some 3) false (.set _ _ (.chars _)))))
      (.seq [.chars [(120, 120)]] [.chars [(48, 57), (65, 70), (97, 102)], .rep 2 (some 2) false] _ _
      (.seq1 _ _ (.item _ _ (.set _ _ (.chars _))))
      (.rep [.chars [(48, 57), (65, 70), (97, 102)]] _ 2 (some 2) false (.set _ _ (.chars _))))))))

theorem means_op : Means Ex.env [(chars "ESCAPE_SEQUENCE", escRe)] {} (chars "[-!$%&*+./:<=>?@^|~]") opRe := by
  refine ⟨[.chars [(33, 33), (36, 38), (42, 43), (45, 47), (58, 58), (60, 64), (94, 94), (124, 124), (126, 126)]], ?_, ?_⟩
  · have h : chars "[-!$%&*+./:<=>?@^|~]" = [91, 45, 33, 36, 37, 38, 42, 43, 46, 47, 58, 60, 61, 62, 63, 64, 94, 124, 126, 93] := by decide
    rw [h]
    exact rd_set (w := []) set3 (.done _ _)
  · exact .alt1 _ _ (.seq1 _ _ (.item _ _ (.set _ _ (.chars _))))

theorem means_id : Means Ex.env macros {} (chars "[A-Za-z_][A-Za-z_0-9']*") idRe := by
  refine ⟨[.chars [(65, 90), (95, 95), (97, 122)], .chars [(39, 39), (48, 57), (65, 90), (95, 95), (97, 122)], .rep 0 none false], ?_, ?_⟩
  · have h : chars "[A-Za-z_][A-Za-z_0-9']*" = [91, 65, 45, 90, 97, 45, 122, 95, 93, 91, 65, 45, 90, 97, 45, 122, 95, 48, 45, 57, 39, 93, 42] := by decide
    rw [h]
    refine rd_set set4 ?_
    refine rd_set set5 ?_
    exact .rep _ _ _ [42] 0 none [] _ (by decide) (by decide) (.done _ _)
  · exact .alt1 _ _ (.seq [.chars [(65, 90), (95, 95), (97, 122)]] [.chars [(39, 39), (48, 57), (65, 90), (95, 95), (97, 122)], .rep 0 none false] _ _
      (.seq1 _ _ (.item _ _ (.set _ _ (.chars _))))
      (.rep [.chars [(39, 39), (48, 57), (65, 90), (95, 95), (97, 122)]] _ 0 none false (.set _ _ (.chars _))))

theorem means_int : Means Ex.env macros {} (chars "-?([0-9][0-9+]*|0([xX][0-9A-Fa-f][0-9A-Fa-f_]*|[oO][0-7][0-7_]*|[bB][01][01_]*))") intRe := by
  refine ⟨[.chars [(45, 45)], .rep 0 (some 1) false, .opn, .chars [(48, 57)], .chars [(43, 43), (48, 57)], .rep 0 none false, .bar, .chars [(48, 48)], .opn, .chars [(88, 88), (120, 120)], .chars [(48, 57), (65, 70), (97, 102)], .chars [(48, 57), (65, 70), (95, 95), (97, 102)], .rep 0 none false, .bar, .chars [(79, 79), (111, 111)], .chars [(48, 55)], .chars [(48, 55), (95, 95)], .rep 0 none false, .bar, .chars [(66, 66), (98, 98)], .chars [(48, 49)], .chars [(48, 49), (95, 95)], .rep 0 none false, .cls, .cls], ?_, ?_⟩
  · have h : chars "-?([0-9][0-9+]*|0([xX][0-9A-Fa-f][0-9A-Fa-f_]*|[oO][0-7][0-7_]*|[bB][01][01_]*))" = [45, 63, 40, 91, 48, 45, 57, 93, 91, 48, 45, 57, 43, 93, 42, 124, 48, 40, 91, 120, 88, 93, 91, 48, 45, 57, 65, 45, 70, 97, 45, 102, 93, 91, 48, 45, 57, 65, 45, 70, 97, 45, 102, 95, 93, 42, 124, 91, 111, 79, 93, 91, 48, 45, 55, 93, 91, 48, 45, 55, 95, 93, 42, 124, 91, 98, 66, 93, 91, 48, 49, 93, 91, 48, 49, 95, 93, 42, 41, 41] := by decide
    rw [h]
    refine rd_char 45 (by decide) ?_
    refine .rep _ _ _ [63] 0 (some 1) _ _ (by decide) (by decide) ?_
    refine .opn _ _ _ _ _ (by decide) ?_
    refine rd_set set1 ?_
    refine rd_set set6 ?_
    refine .rep _ _ _ [42] 0 none _ _ (by decide) (by decide) ?_
    refine .bar _ _ _ _ _ ?_
    refine rd_char 48 (by decide) ?_
    refine .opn _ _ _ _ _ (by decide) ?_
    refine rd_set set7 ?_
    refine rd_set set2 ?_
    refine rd_set set8 ?_
    refine .rep _ _ _ [42] 0 none _ _ (by decide) (by decide) ?_
    refine .bar _ _ _ _ _ ?_
    refine rd_set set9 ?_
    refine rd_set set10 ?_
    refine rd_set set11 ?_
    refine .rep _ _ _ [42] 0 none _ _ (by decide) (by decide) ?_
    refine .bar _ _ _ _ _ ?_
    refine rd_set set12 ?_
    refine rd_set set13 ?_
    refine rd_set set14 ?_
    refine .rep _ _ _ [42] 0 none _ _ (by decide) (by decide) ?_
    refine .cls _ _ _ _ _ _ ?_
    exact .cls _ _ _ _ _ _ (.done _ _)
  · exact .alt1 _ _ (.seq [.chars [(45, 45)], .rep 0 (some 1) false] [.opn, .chars [(48, 57)], .chars [(43, 43), (48, 57)], .rep 0 none false, .bar, .chars [(48, 48)], .opn, .chars [(88, 88), (120, 120)], .chars [(48, 57), (65, 70), (97, 102)], .chars [(48, 57), (65, 70), (95, 95), (97, 102)], .rep 0 none false, .bar, .chars [(79, 79), (111, 111)], .chars [(48, 55)], .chars [(48, 55), (95, 95)], .rep 0 none false, .bar, .chars [(66, 66), (98, 98)], .chars [(48, 49)], .chars [(48, 49), (95, 95)], .rep 0 none false, .cls, .cls] _ _
      (.seq1 _ _ (.rep [.chars [(45, 45)]] _ 0 (some 1) false (.set _ _ (.chars _))))
      (.item _ _ (.paren [.chars [(48, 57)], .chars [(43, 43), (48, 57)], .rep 0 none false, .bar, .chars [(48, 48)], .opn, .chars [(88, 88), (120, 120)], .chars [(48, 57), (65, 70), (97, 102)], .chars [(48, 57), (65, 70), (95, 95), (97, 102)], .rep 0 none false, .bar, .chars [(79, 79), (111, 111)], .chars [(48, 55)], .chars [(48, 55), (95, 95)], .rep 0 none false, .bar, .chars [(66, 66), (98, 98)], .chars [(48, 49)], .chars [(48, 49), (95, 95)], .rep 0 none false, .cls] _ (.alt [.chars [(48, 57)], .chars [(43, 43), (48, 57)], .rep 0 none false] [.chars [(48, 48)], .opn, .chars [(88, 88), (120, 120)], .chars [(48, 57), (65, 70), (97, 102)], .chars [(48, 57), (65, 70), (95, 95), (97, 102)], .rep 0 none false, .bar, .chars [(79, 79), (111, 111)], .chars [(48, 55)], .chars [(48, 55), (95, 95)], .rep 0 none false, .bar, .chars [(66, 66), (98, 98)], .chars [(48, 49)], .chars [(48, 49), (95, 95)], .rep 0 none false, .cls] _ _
      (.alt1 _ _ (.seq [.chars [(48, 57)]] [.chars [(43, 43), (48, 57)], .rep 0 none false] _ _
      (.seq1 _ _ (.item _ _ (.set _ _ (.chars _))))
      (.rep [.chars [(43, 43), (48, 57)]] _ 0 none false (.set _ _ (.chars _)))))
      (.seq [.chars [(48, 48)]] [.opn, .chars [(88, 88), (120, 120)], .chars [(48, 57), (65, 70), (97, 102)], .chars [(48, 57), (65, 70), (95, 95), (97, 102)], .rep 0 none false, .bar, .chars [(79, 79), (111, 111)], .chars [(48, 55)], .chars [(48, 55), (95, 95)], .rep 0 none false, .bar, .chars [(66, 66), (98, 98)], .chars [(48, 49)], .chars [(48, 49), (95, 95)], .rep 0 none false, .cls] _ _
      (.seq1 _ _ (.item _ _ (.set _ _ (.chars _))))
      (.item _ _ (.paren [.chars [(88, 88), (120, 120)], .chars [(48, 57), (65, 70), (97, 102)], .chars [(48, 57), (65, 70), (95, 95), (97, 102)], .rep 0 none false, .bar, .chars [(79, 79), (111, 111)], .chars [(48, 55)], .chars [(48, 55), (95, 95)], .rep 0 none false, .bar, .chars [(66, 66), (98, 98)], .chars [(48, 49)], .chars [(48, 49), (95, 95)], .rep 0 none false] _ (.alt [.chars [(88, 88), (120, 120)], .chars [(48, 57), (65, 70), (97, 102)], .chars [(48, 57), (65, 70), (95, 95), (97, 102)], .rep 0 none false, .bar, .chars [(79, 79), (111, 111)], .chars [(48, 55)], .chars [(48, 55), (95, 95)], .rep 0 none false] [.chars [(66, 66), (98, 98)], .chars [(48, 49)], .chars [(48, 49), (95, 95)], .rep 0 none false] _ _
      (.alt [.chars [(88, 88), (120, 120)], .chars [(48, 57), (65, 70), (97, 102)], .chars [(48, 57), (65, 70), (95, 95), (97, 102)], .rep 0 none false] [.chars [(79, 79), (111, 111)], .chars [(48, 55)], .chars [(48, 55), (95, 95)], .rep 0 none false] _ _
      (.alt1 _ _ (.seq [.chars [(88, 88), (120, 120)], .chars [(48, 57), (65, 70), (97, 102)]] [.chars [(48, 57), (65, 70), (95, 95), (97, 102)], .rep 0 none false] _ _
      (.seq [.chars [(88, 88), (120, 120)]] [.chars [(48, 57), (65, 70), (97, 102)]] _ _
      (.seq1 _ _ (.item _ _ (.set _ _ (.chars _))))
      (.item _ _ (.set _ _ (.chars _))))
      (.rep [.chars [(48, 57), (65, 70), (95, 95), (97, 102)]] _ 0 none false (.set _ _ (.chars _)))))
      (.seq [.chars [(79, 79), (111, 111)], .chars [(48, 55)]] [.chars [(48, 55), (95, 95)], .rep 0 none false] _ _
      (.seq [.chars [(79, 79), (111, 111)]] [.chars [(48, 55)]] _ _
      (.seq1 _ _ (.item _ _ (.set _ _ (.chars _))))
      (.item _ _ (.set _ _ (.chars _))))
      (.rep [.chars [(48, 55), (95, 95)]] _ 0 none false (.set _ _ (.chars _)))))
      (.seq [.chars [(66, 66), (98, 98)], .chars [(48, 49)]] [.chars [(48, 49), (95, 95)], .rep 0 none false] _ _
      (.seq [.chars [(66, 66), (98, 98)]] [.chars [(48, 49)]] _ _
      (.seq1 _ _ (.item _ _ (.set _ _ (.chars _))))
      (.item _ _ (.set _ _ (.chars _))))
      (.rep [.chars [(48, 49), (95, 95)]] _ 0 none false (.set _ _ (.chars _))))))))))))

theorem means_float : Means Ex.env macros {} (chars "-?[0-9][0-9_]*(\\.[0-9-])?([eE][-+]?[0-9][0-9_]*)?") floatRe := by
  refine ⟨[.chars [(45, 45)], .rep 0 (some 1) false, .chars [(48, 57)], .chars [(48, 57), (95, 95)], .rep 0 none false, .opn, .chars [(46, 46)], .chars [(45, 45), (48, 57)], .cls, .rep 0 (some 1) false, .opn, .chars [(69, 69), (101, 101)], .chars [(43, 43), (45, 45)], .rep 0 (some 1) false, .chars [(48, 57)], .chars [(48, 57), (95, 95)], .rep 0 none false, .cls, .rep 0 (some 1) false], ?_, ?_⟩
  · have h : chars "-?[0-9][0-9_]*(\\.[0-9-])?([eE][-+]?[0-9][0-9_]*)?" = [45, 63, 91, 48, 45, 57, 93, 91, 48, 45, 57, 95, 93, 42, 40, 92, 46, 91, 48, 45, 57, 45, 93, 41, 63, 40, 91, 101, 69, 93, 91, 45, 43, 93, 63, 91, 48, 45, 57, 93, 91, 48, 45, 57, 95, 93, 42, 41, 63] := by decide
    rw [h]
    refine rd_char 45 (by decide) ?_
    refine .rep _ _ _ [63] 0 (some 1) _ _ (by decide) (by decide) ?_
    refine rd_set set1 ?_
    refine rd_set set15 ?_
    refine .rep _ _ _ [42] 0 none _ _ (by decide) (by decide) ?_
    refine .opn _ _ _ _ _ (by decide) ?_
    refine rd_esc 46 (by decide) (by decide) (by decide) ?_
    refine rd_set set16 ?_
    refine .cls _ _ _ _ _ _ ?_
    refine .rep _ _ _ [63] 0 (some 1) _ _ (by decide) (by decide) ?_
    refine .opn _ _ _ _ _ (by decide) ?_
    refine rd_set set17 ?_
    refine rd_set set18 ?_
    refine .rep _ _ _ [63] 0 (some 1) _ _ (by decide) (by decide) ?_
    refine rd_set set1 ?_
    refine rd_set set15 ?_
    refine .rep _ _ _ [42] 0 none _ _ (by decide) (by decide) ?_
    refine .cls _ _ _ _ _ _ ?_
    exact .rep _ _ _ [63] 0 (some 1) [] _ (by decide) (by decide) (.done _ _)
  · exact .alt1 _ _ (.seq [.chars [(45, 45)], .rep 0 (some 1) false, .chars [(48, 57)], .chars [(48, 57), (95, 95)], .rep 0 none false, .opn, .chars [(46, 46)], .chars [(45, 45), (48, 57)], .cls, .rep 0 (some 1) false] [.opn, .chars [(69, 69), (101, 101)], .chars [(43, 43), (45, 45)], .rep 0 (some 1) false, .chars [(48, 57)], .chars [(48, 57), (95, 95)], .rep 0 none false, .cls, .rep 0 (some 1) false] _ _
      (.seq [.chars [(45, 45)], .rep 0 (some 1) false, .chars [(48, 57)], .chars [(48, 57), (95, 95)], .rep 0 none false] [.opn, .chars [(46, 46)], .chars [(45, 45), (48, 57)], .cls, .rep 0 (some 1) false] _ _
      (.seq [.chars [(45, 45)], .rep 0 (some 1) false, .chars [(48, 57)]] [.chars [(48, 57), (95, 95)], .rep 0 none false] _ _
      (.seq [.chars [(45, 45)], .rep 0 (some 1) false] [.chars [(48, 57)]] _ _
      (.seq1 _ _ (.rep [.chars [(45, 45)]] _ 0 (some 1) false (.set _ _ (.chars _))))
      (.item _ _ (.set _ _ (.chars _))))
      (.rep [.chars [(48, 57), (95, 95)]] _ 0 none false (.set _ _ (.chars _))))
      (.rep [.opn, .chars [(46, 46)], .chars [(45, 45), (48, 57)], .cls] _ 0 (some 1) false (.paren [.chars [(46, 46)], .chars [(45, 45), (48, 57)]] _ (.alt1 _ _ (.seq [.chars [(46, 46)]] [.chars [(45, 45), (48, 57)]] _ _
      (.seq1 _ _ (.item _ _ (.set _ _ (.chars _))))
      (.item _ _ (.set _ _ (.chars _))))))))
      (.rep [.opn, .chars [(69, 69), (101, 101)], .chars [(43, 43), (45, 45)], .rep 0 (some 1) false, .chars [(48, 57)], .chars [(48, 57), (95, 95)], .rep 0 none false, .cls] _ 0 (some 1) false (.paren [.chars [(69, 69), (101, 101)], .chars [(43, 43), (45, 45)], .rep 0 (some 1) false, .chars [(48, 57)], .chars [(48, 57), (95, 95)], .rep 0 none false] _ (.alt1 _ _ (.seq [.chars [(69, 69), (101, 101)], .chars [(43, 43), (45, 45)], .rep 0 (some 1) false, .chars [(48, 57)]] [.chars [(48, 57), (95, 95)], .rep 0 none false] _ _
      (.seq [.chars [(69, 69), (101, 101)], .chars [(43, 43), (45, 45)], .rep 0 (some 1) false] [.chars [(48, 57)]] _ _
      (.seq [.chars [(69, 69), (101, 101)]] [.chars [(43, 43), (45, 45)], .rep 0 (some 1) false] _ _
      (.seq1 _ _ (.item _ _ (.set _ _ (.chars _))))
      (.rep [.chars [(43, 43), (45, 45)]] _ 0 (some 1) false (.set _ _ (.chars _))))
      (.item _ _ (.set _ _ (.chars _))))
      (.rep [.chars [(48, 57), (95, 95)]] _ 0 none false (.set _ _ (.chars _))))))))

theorem means_char : Means Ex.env macros {} (chars "'[^\\']|{ESCAPE_SEQUENCE}'") charRe := by
  refine ⟨[.chars [(39, 39)], .chars [(0, 38), (40, 255)], .bar, .mac (chars "ESCAPE_SEQUENCE"), .chars [(39, 39)]], ?_, ?_⟩
  · have h : chars "'[^\\']|{ESCAPE_SEQUENCE}'" = [39, 91, 94, 92, 39, 93, 124, 123, 69, 83, 67, 65, 80, 69, 95, 83, 69, 81, 85, 69, 78, 67, 69, 125, 39] := by decide
    rw [h]
    refine rd_char 39 (by decide) ?_
    refine rd_set set19 ?_
    refine .bar _ _ _ _ _ ?_
    refine rd_mac [69, 83, 67, 65, 80, 69, 95, 83, 69, 81, 85, 69, 78, 67, 69] (by rfl) mac_ESCAPE_SEQUENCE ?_
    exact rd_char 39 (by decide) (.done _ _)
  · exact .alt [.chars [(39, 39)], .chars [(0, 38), (40, 255)]] [.mac (chars "ESCAPE_SEQUENCE"), .chars [(39, 39)]] _ _
      (.alt1 _ _ (.seq [.chars [(39, 39)]] [.chars [(0, 38), (40, 255)]] _ _
      (.seq1 _ _ (.item _ _ (.set _ _ (.chars _))))
      (.item _ _ (.set _ _ (.chars _)))))
      (.seq [.mac (chars "ESCAPE_SEQUENCE")] [.chars [(39, 39)]] _ _
      (.seq1 _ _ (.item _ _ (.mac _ _ find_ESCAPE_SEQUENCE)))
      (.item _ _ (.set _ _ (.chars _))))

theorem means_str : Means Ex.env macros {} (chars "\"([^\\\"]|{ESCAPE_SEQUENCE})*\"") strRe := by
  refine ⟨[.chars [(40, 40)], .chars [(91, 91)], .chars [(94, 94)], .chars [(34, 34)], .chars [(93, 93)], .chars [(124, 124)], .chars [(123, 123)], .chars [(69, 69)], .chars [(83, 83)], .chars [(67, 67)], .chars [(65, 65)], .chars [(80, 80)], .chars [(69, 69)], .chars [(95, 95)], .chars [(83, 83)], .chars [(69, 69)], .chars [(81, 81)], .chars [(85, 85)], .chars [(69, 69)], .chars [(78, 78)], .chars [(67, 67)], .chars [(69, 69)], .chars [(125, 125)], .chars [(41, 41)], .chars [(42, 42)]], ?_, ?_⟩
  · have h : chars "\"([^\\\"]|{ESCAPE_SEQUENCE})*\"" = [34, 40, 91, 94, 92, 34, 93, 124, 123, 69, 83, 67, 65, 80, 69, 95, 83, 69, 81, 85, 69, 78, 67, 69, 125, 41, 42, 34] := by decide
    rw [h]
    refine .quote _ _ _ _ _ _ ?_
    refine rd_qchr 40 (by decide) (by decide) ?_
    refine rd_qchr 91 (by decide) (by decide) ?_
    refine rd_qchr 94 (by decide) (by decide) ?_
    refine rd_qesc 34 (by decide) (by decide) (by decide) ?_
    refine rd_qchr 93 (by decide) (by decide) ?_
    refine rd_qchr 124 (by decide) (by decide) ?_
    refine rd_qchr 123 (by decide) (by decide) ?_
    refine rd_qchr 69 (by decide) (by decide) ?_
    refine rd_qchr 83 (by decide) (by decide) ?_
    refine rd_qchr 67 (by decide) (by decide) ?_
    refine rd_qchr 65 (by decide) (by decide) ?_
    refine rd_qchr 80 (by decide) (by decide) ?_
    refine rd_qchr 69 (by decide) (by decide) ?_
    refine rd_qchr 95 (by decide) (by decide) ?_
    refine rd_qchr 83 (by decide) (by decide) ?_
    refine rd_qchr 69 (by decide) (by decide) ?_
    refine rd_qchr 81 (by decide) (by decide) ?_
    refine rd_qchr 85 (by decide) (by decide) ?_
    refine rd_qchr 69 (by decide) (by decide) ?_
    refine rd_qchr 78 (by decide) (by decide) ?_
    refine rd_qchr 67 (by decide) (by decide) ?_
    refine rd_qchr 69 (by decide) (by decide) ?_
    refine rd_qchr 125 (by decide) (by decide) ?_
    refine rd_qchr 41 (by decide) (by decide) ?_
    refine rd_qchr 42 (by decide) (by decide) ?_
    exact .quote _ _ _ _ _ _ (.done _ _)
  · exact .alt1 _ _ (.seq [.chars [(40, 40)], .chars [(91, 91)], .chars [(94, 94)], .chars [(34, 34)], .chars [(93, 93)], .chars [(124, 124)], .chars [(123, 123)], .chars [(69, 69)], .chars [(83, 83)], .chars [(67, 67)], .chars [(65, 65)], .chars [(80, 80)], .chars [(69, 69)], .chars [(95, 95)], .chars [(83, 83)], .chars [(69, 69)], .chars [(81, 81)], .chars [(85, 85)], .chars [(69, 69)], .chars [(78, 78)], .chars [(67, 67)], .chars [(69, 69)], .chars [(125, 125)], .chars [(41, 41)]] [.chars [(42, 42)]] _ _
      (.seq [.chars [(40, 40)], .chars [(91, 91)], .chars [(94, 94)], .chars [(34, 34)], .chars [(93, 93)], .chars [(124, 124)], .chars [(123, 123)], .chars [(69, 69)], .chars [(83, 83)], .chars [(67, 67)], .chars [(65, 65)], .chars [(80, 80)], .chars [(69, 69)], .chars [(95, 95)], .chars [(83, 83)], .chars [(69, 69)], .chars [(81, 81)], .chars [(85, 85)], .chars [(69, 69)], .chars [(78, 78)], .chars [(67, 67)], .chars [(69, 69)], .chars [(125, 125)]] [.chars [(41, 41)]] _ _
      (.seq [.chars [(40, 40)], .chars [(91, 91)], .chars [(94, 94)], .chars [(34, 34)], .chars [(93, 93)], .chars [(124, 124)], .chars [(123, 123)], .chars [(69, 69)], .chars [(83, 83)], .chars [(67, 67)], .chars [(65, 65)], .chars [(80, 80)], .chars [(69, 69)], .chars [(95, 95)], .chars [(83, 83)], .chars [(69, 69)], .chars [(81, 81)], .chars [(85, 85)], .chars [(69, 69)], .chars [(78, 78)], .chars [(67, 67)], .chars [(69, 69)]] [.chars [(125, 125)]] _ _
      (.seq [.chars [(40, 40)], .chars [(91, 91)], .chars [(94, 94)], .chars [(34, 34)], .chars [(93, 93)], .chars [(124, 124)], .chars [(123, 123)], .chars [(69, 69)], .chars [(83, 83)], .chars [(67, 67)], .chars [(65, 65)], .chars [(80, 80)], .chars [(69, 69)], .chars [(95, 95)], .chars [(83, 83)], .chars [(69, 69)], .chars [(81, 81)], .chars [(85, 85)], .chars [(69, 69)], .chars [(78, 78)], .chars [(67, 67)]] [.chars [(69, 69)]] _ _
      (.seq [.chars [(40, 40)], .chars [(91, 91)], .chars [(94, 94)], .chars [(34, 34)], .chars [(93, 93)], .chars [(124, 124)], .chars [(123, 123)], .chars [(69, 69)], .chars [(83, 83)], .chars [(67, 67)], .chars [(65, 65)], .chars [(80, 80)], .chars [(69, 69)], .chars [(95, 95)], .chars [(83, 83)], .chars [(69, 69)], .chars [(81, 81)], .chars [(85, 85)], .chars [(69, 69)], .chars [(78, 78)]] [.chars [(67, 67)]] _ _
      (.seq [.chars [(40, 40)], .chars [(91, 91)], .chars [(94, 94)], .chars [(34, 34)], .chars [(93, 93)], .chars [(124, 124)], .chars [(123, 123)], .chars [(69, 69)], .chars [(83, 83)], .chars [(67, 67)], .chars [(65, 65)], .chars [(80, 80)], .chars [(69, 69)], .chars [(95, 95)], .chars [(83, 83)], .chars [(69, 69)], .chars [(81, 81)], .chars [(85, 85)], .chars [(69, 69)]] [.chars [(78, 78)]] _ _
      (.seq [.chars [(40, 40)], .chars [(91, 91)], .chars [(94, 94)], .chars [(34, 34)], .chars [(93, 93)], .chars [(124, 124)], .chars [(123, 123)], .chars [(69, 69)], .chars [(83, 83)], .chars [(67, 67)], .chars [(65, 65)], .chars [(80, 80)], .chars [(69, 69)], .chars [(95, 95)], .chars [(83, 83)], .chars [(69, 69)], .chars [(81, 81)], .chars [(85, 85)]] [.chars [(69, 69)]] _ _
      (.seq [.chars [(40, 40)], .chars [(91, 91)], .chars [(94, 94)], .chars [(34, 34)], .chars [(93, 93)], .chars [(124, 124)], .chars [(123, 123)], .chars [(69, 69)], .chars [(83, 83)], .chars [(67, 67)], .chars [(65, 65)], .chars [(80, 80)], .chars [(69, 69)], .chars [(95, 95)], .chars [(83, 83)], .chars [(69, 69)], .chars [(81, 81)]] [.chars [(85, 85)]] _ _
      (.seq [.chars [(40, 40)], .chars [(91, 91)], .chars [(94, 94)], .chars [(34, 34)], .chars [(93, 93)], .chars [(124, 124)], .chars [(123, 123)], .chars [(69, 69)], .chars [(83, 83)], .chars [(67, 67)], .chars [(65, 65)], .chars [(80, 80)], .chars [(69, 69)], .chars [(95, 95)], .chars [(83, 83)], .chars [(69, 69)]] [.chars [(81, 81)]] _ _
      (.seq [.chars [(40, 40)], .chars [(91, 91)], .chars [(94, 94)], .chars [(34, 34)], .chars [(93, 93)], .chars [(124, 124)], .chars [(123, 123)], .chars [(69, 69)], .chars [(83, 83)], .chars [(67, 67)], .chars [(65, 65)], .chars [(80, 80)], .chars [(69, 69)], .chars [(95, 95)], .chars [(83, 83)]] [.chars [(69, 69)]] _ _
      (.seq [.chars [(40, 40)], .chars [(91, 91)], .chars [(94, 94)], .chars [(34, 34)], .chars [(93, 93)], .chars [(124, 124)], .chars [(123, 123)], .chars [(69, 69)], .chars [(83, 83)], .chars [(67, 67)], .chars [(65, 65)], .chars [(80, 80)], .chars [(69, 69)], .chars [(95, 95)]] [.chars [(83, 83)]] _ _
      (.seq [.chars [(40, 40)], .chars [(91, 91)], .chars [(94, 94)], .chars [(34, 34)], .chars [(93, 93)], .chars [(124, 124)], .chars [(123, 123)], .chars [(69, 69)], .chars [(83, 83)], .chars [(67, 67)], .chars [(65, 65)], .chars [(80, 80)], .chars [(69, 69)]] [.chars [(95, 95)]] _ _
      (.seq [.chars [(40, 40)], .chars [(91, 91)], .chars [(94, 94)], .chars [(34, 34)], .chars [(93, 93)], .chars [(124, 124)], .chars [(123, 123)], .chars [(69, 69)], .chars [(83, 83)], .chars [(67, 67)], .chars [(65, 65)], .chars [(80, 80)]] [.chars [(69, 69)]] _ _
      (.seq [.chars [(40, 40)], .chars [(91, 91)], .chars [(94, 94)], .chars [(34, 34)], .chars [(93, 93)], .chars [(124, 124)], .chars [(123, 123)], .chars [(69, 69)], .chars [(83, 83)], .chars [(67, 67)], .chars [(65, 65)]] [.chars [(80, 80)]] _ _
      (.seq [.chars [(40, 40)], .chars [(91, 91)], .chars [(94, 94)], .chars [(34, 34)], .chars [(93, 93)], .chars [(124, 124)], .chars [(123, 123)], .chars [(69, 69)], .chars [(83, 83)], .chars [(67, 67)]] [.chars [(65, 65)]] _ _
      (.seq [.chars [(40, 40)], .chars [(91, 91)], .chars [(94, 94)], .chars [(34, 34)], .chars [(93, 93)], .chars [(124, 124)], .chars [(123, 123)], .chars [(69, 69)], .chars [(83, 83)]] [.chars [(67, 67)]] _ _
      (.seq [.chars [(40, 40)], .chars [(91, 91)], .chars [(94, 94)], .chars [(34, 34)], .chars [(93, 93)], .chars [(124, 124)], .chars [(123, 123)], .chars [(69, 69)]] [.chars [(83, 83)]] _ _
      (.seq [.chars [(40, 40)], .chars [(91, 91)], .chars [(94, 94)], .chars [(34, 34)], .chars [(93, 93)], .chars [(124, 124)], .chars [(123, 123)]] [.chars [(69, 69)]] _ _
      (.seq [.chars [(40, 40)], .chars [(91, 91)], .chars [(94, 94)], .chars [(34, 34)], .chars [(93, 93)], .chars [(124, 124)]] [.chars [(123, 123)]] _ _
      (.seq [.chars [(40, 40)], .chars [(91, 91)], .chars [(94, 94)], .chars [(34, 34)], .chars [(93, 93)]] [.chars [(124, 124)]] _ _
      (.seq [.chars [(40, 40)], .chars [(91, 91)], .chars [(94, 94)], .chars [(34, 34)]] [.chars [(93, 93)]] _ _
      (.seq [.chars [(40, 40)], .chars [(91, 91)], .chars [(94, 94)]] [.chars [(34, 34)]] _ _
      (.seq [.chars [(40, 40)], .chars [(91, 91)]] [.chars [(94, 94)]] _ _
      (.seq [.chars [(40, 40)]] [.chars [(91, 91)]] _ _
      (.seq1 _ _ (.item _ _ (.set _ _ (.chars _))))
      (.item _ _ (.set _ _ (.chars _))))
      (.item _ _ (.set _ _ (.chars _))))
      (.item _ _ (.set _ _ (.chars _))))
      (.item _ _ (.set _ _ (.chars _))))
      (.item _ _ (.set _ _ (.chars _))))
      (.item _ _ (.set _ _ (.chars _))))
      (.item _ _ (.set _ _ (.chars _))))
      (.item _ _ (.set _ _ (.chars _))))
      (.item _ _ (.set _ _ (.chars _))))
      (.item _ _ (.set _ _ (.chars _))))
      (.item _ _ (.set _ _ (.chars _))))
      (.item _ _ (.set _ _ (.chars _))))
      (.item _ _ (.set _ _ (.chars _))))
      (.item _ _ (.set _ _ (.chars _))))
      (.item _ _ (.set _ _ (.chars _))))
      (.item _ _ (.set _ _ (.chars _))))
      (.item _ _ (.set _ _ (.chars _))))
      (.item _ _ (.set _ _ (.chars _))))
      (.item _ _ (.set _ _ (.chars _))))
      (.item _ _ (.set _ _ (.chars _))))
      (.item _ _ (.set _ _ (.chars _))))
      (.item _ _ (.set _ _ (.chars _))))
      (.item _ _ (.set _ _ (.chars _))))
      (.item _ _ (.set _ _ (.chars _))))

theorem means_infix : Means Ex.env macros {} (chars "[-=<>@^|&+*/$%]{OPERATOR_CHAR}*") infixRe := by
  refine ⟨[.chars [(36, 38), (42, 43), (45, 45), (47, 47), (60, 62), (64, 64), (94, 94), (124, 124)], .mac (chars "OPERATOR_CHAR"), .rep 0 none false], ?_, ?_⟩
  · have h : chars "[-=<>@^|&+*/$%]{OPERATOR_CHAR}*" = [91, 45, 61, 60, 62, 64, 94, 124, 38, 43, 42, 47, 36, 37, 93, 123, 79, 80, 69, 82, 65, 84, 79, 82, 95, 67, 72, 65, 82, 125, 42] := by decide
    rw [h]
    refine rd_set set20 ?_
    refine rd_mac [79, 80, 69, 82, 65, 84, 79, 82, 95, 67, 72, 65, 82] (by rfl) mac_OPERATOR_CHAR ?_
    exact .rep _ _ _ [42] 0 none [] _ (by decide) (by decide) (.done _ _)
  · exact .alt1 _ _ (.seq [.chars [(36, 38), (42, 43), (45, 45), (47, 47), (60, 62), (64, 64), (94, 94), (124, 124)]] [.mac (chars "OPERATOR_CHAR"), .rep 0 none false] _ _
      (.seq1 _ _ (.item _ _ (.set _ _ (.chars _))))
      (.rep [.mac (chars "OPERATOR_CHAR")] _ 0 none false (.mac _ _ find_OPERATOR_CHAR)))

theorem means_prefix : Means Ex.env macros {} (chars "[!?~]{OPERATOR_CHAR}*") prefixRe := by
  refine ⟨[.chars [(33, 33), (63, 63), (126, 126)], .mac (chars "OPERATOR_CHAR"), .rep 0 none false], ?_, ?_⟩
  · have h : chars "[!?~]{OPERATOR_CHAR}*" = [91, 33, 63, 126, 93, 123, 79, 80, 69, 82, 65, 84, 79, 82, 95, 67, 72, 65, 82, 125, 42] := by decide
    rw [h]
    refine rd_set set21 ?_
    refine rd_mac [79, 80, 69, 82, 65, 84, 79, 82, 95, 67, 72, 65, 82] (by rfl) mac_OPERATOR_CHAR ?_
    exact .rep _ _ _ [42] 0 none [] _ (by decide) (by decide) (.done _ _)
  · exact .alt1 _ _ (.seq [.chars [(33, 33), (63, 63), (126, 126)]] [.mac (chars "OPERATOR_CHAR"), .rep 0 none false] _ _
      (.seq1 _ _ (.item _ _ (.set _ _ (.chars _))))
      (.rep [.mac (chars "OPERATOR_CHAR")] _ 0 none false (.mac _ _ find_OPERATOR_CHAR)))

theorem means_opc : Means Ex.env macros {} (chars "{OPERATOR_CHAR}") opcRe := by
  refine ⟨[.mac (chars "OPERATOR_CHAR")], ?_, ?_⟩
  · have h : chars "{OPERATOR_CHAR}" = [123, 79, 80, 69, 82, 65, 84, 79, 82, 95, 67, 72, 65, 82, 125] := by decide
    rw [h]
    exact rd_mac (w := []) [79, 80, 69, 82, 65, 84, 79, 82, 95, 67, 72, 65, 82] (by rfl) mac_OPERATOR_CHAR (.done _ _)
  · exact .alt1 _ _ (.seq1 _ _ (.item _ _ (.mac _ _ find_OPERATOR_CHAR)))

theorem means_dir : Means Ex.env macros {} (chars "#\\d+(\"([^\\\"]|{ESCAPE_SEQUENCE})*\")?") dirRe := by
  refine ⟨[.chars [(35, 35)], .chars [(48, 57)], .rep 1 none false, .opn, .chars [(40, 40)], .chars [(91, 91)], .chars [(94, 94)], .chars [(34, 34)], .chars [(93, 93)], .chars [(124, 124)], .chars [(123, 123)], .chars [(69, 69)], .chars [(83, 83)], .chars [(67, 67)], .chars [(65, 65)], .chars [(80, 80)], .chars [(69, 69)], .chars [(95, 95)], .chars [(83, 83)], .chars [(69, 69)], .chars [(81, 81)], .chars [(85, 85)], .chars [(69, 69)], .chars [(78, 78)], .chars [(67, 67)], .chars [(69, 69)], .chars [(125, 125)], .chars [(41, 41)], .chars [(42, 42)], .cls, .rep 0 (some 1) false], ?_, ?_⟩
  · have h : chars "#\\d+(\"([^\\\"]|{ESCAPE_SEQUENCE})*\")?" = [35, 92, 100, 43, 40, 34, 40, 91, 94, 92, 34, 93, 124, 123, 69, 83, 67, 65, 80, 69, 95, 83, 69, 81, 85, 69, 78, 67, 69, 125, 41, 42, 34, 41, 63] := by decide
    rw [h]
    refine rd_char 35 (by decide) ?_
    refine rd_digit ?_
    refine .rep _ _ _ [43] 1 none _ _ (by decide) (by decide) ?_
    refine .opn _ _ _ _ _ (by decide) ?_
    refine .quote _ _ _ _ _ _ ?_
    refine rd_qchr 40 (by decide) (by decide) ?_
    refine rd_qchr 91 (by decide) (by decide) ?_
    refine rd_qchr 94 (by decide) (by decide) ?_
    refine rd_qesc 34 (by decide) (by decide) (by decide) ?_
    refine rd_qchr 93 (by decide) (by decide) ?_
    refine rd_qchr 124 (by decide) (by decide) ?_
    refine rd_qchr 123 (by decide) (by decide) ?_
    refine rd_qchr 69 (by decide) (by decide) ?_
    refine rd_qchr 83 (by decide) (by decide) ?_
    refine rd_qchr 67 (by decide) (by decide) ?_
    refine rd_qchr 65 (by decide) (by decide) ?_
    refine rd_qchr 80 (by decide) (by decide) ?_
    refine rd_qchr 69 (by decide) (by decide) ?_
    refine rd_qchr 95 (by decide) (by decide) ?_
    refine rd_qchr 83 (by decide) (by decide) ?_
    refine rd_qchr 69 (by decide) (by decide) ?_
    refine rd_qchr 81 (by decide) (by decide) ?_
    refine rd_qchr 85 (by decide) (by decide) ?_
    refine rd_qchr 69 (by decide) (by decide) ?_
    refine rd_qchr 78 (by decide) (by decide) ?_
    refine rd_qchr 67 (by decide) (by decide) ?_
    refine rd_qchr 69 (by decide) (by decide) ?_
    refine rd_qchr 125 (by decide) (by decide) ?_
    refine rd_qchr 41 (by decide) (by decide) ?_
    refine rd_qchr 42 (by decide) (by decide) ?_
    refine .quote _ _ _ _ _ _ ?_
    refine .cls _ _ _ _ _ _ ?_
    exact .rep _ _ _ [63] 0 (some 1) [] _ (by decide) (by decide) (.done _ _)
  · exact .alt1 _ _ (.seq [.chars [(35, 35)], .chars [(48, 57)], .rep 1 none false] [.opn, .chars [(40, 40)], .chars [(91, 91)], .chars [(94, 94)], .chars [(34, 34)], .chars [(93, 93)], .chars [(124, 124)], .chars [(123, 123)], .chars [(69, 69)], .chars [(83, 83)], .chars [(67, 67)], .chars [(65, 65)], .chars [(80, 80)], .chars [(69, 69)], .chars [(95, 95)], .chars [(83, 83)], .chars [(69, 69)], .chars [(81, 81)], .chars [(85, 85)], .chars [(69, 69)], .chars [(78, 78)], .chars [(67, 67)], .chars [(69, 69)], .chars [(125, 125)], .chars [(41, 41)], .chars [(42, 42)], .cls, .rep 0 (some 1) false] _ _
      (.seq [.chars [(35, 35)]] [.chars [(48, 57)], .rep 1 none false] _ _
      (.seq1 _ _ (.item _ _ (.set _ _ (.chars _))))
      (.rep [.chars [(48, 57)]] _ 1 none false (.set _ _ (.chars _))))
      (.rep [.opn, .chars [(40, 40)], .chars [(91, 91)], .chars [(94, 94)], .chars [(34, 34)], .chars [(93, 93)], .chars [(124, 124)], .chars [(123, 123)], .chars [(69, 69)], .chars [(83, 83)], .chars [(67, 67)], .chars [(65, 65)], .chars [(80, 80)], .chars [(69, 69)], .chars [(95, 95)], .chars [(83, 83)], .chars [(69, 69)], .chars [(81, 81)], .chars [(85, 85)], .chars [(69, 69)], .chars [(78, 78)], .chars [(67, 67)], .chars [(69, 69)], .chars [(125, 125)], .chars [(41, 41)], .chars [(42, 42)], .cls] _ 0 (some 1) false (.paren [.chars [(40, 40)], .chars [(91, 91)], .chars [(94, 94)], .chars [(34, 34)], .chars [(93, 93)], .chars [(124, 124)], .chars [(123, 123)], .chars [(69, 69)], .chars [(83, 83)], .chars [(67, 67)], .chars [(65, 65)], .chars [(80, 80)], .chars [(69, 69)], .chars [(95, 95)], .chars [(83, 83)], .chars [(69, 69)], .chars [(81, 81)], .chars [(85, 85)], .chars [(69, 69)], .chars [(78, 78)], .chars [(67, 67)], .chars [(69, 69)], .chars [(125, 125)], .chars [(41, 41)], .chars [(42, 42)]] _ (.alt1 _ _ (.seq [.chars [(40, 40)], .chars [(91, 91)], .chars [(94, 94)], .chars [(34, 34)], .chars [(93, 93)], .chars [(124, 124)], .chars [(123, 123)], .chars [(69, 69)], .chars [(83, 83)], .chars [(67, 67)], .chars [(65, 65)], .chars [(80, 80)], .chars [(69, 69)], .chars [(95, 95)], .chars [(83, 83)], .chars [(69, 69)], .chars [(81, 81)], .chars [(85, 85)], .chars [(69, 69)], .chars [(78, 78)], .chars [(67, 67)], .chars [(69, 69)], .chars [(125, 125)], .chars [(41, 41)]] [.chars [(42, 42)]] _ _
      (.seq [.chars [(40, 40)], .chars [(91, 91)], .chars [(94, 94)], .chars [(34, 34)], .chars [(93, 93)], .chars [(124, 124)], .chars [(123, 123)], .chars [(69, 69)], .chars [(83, 83)], .chars [(67, 67)], .chars [(65, 65)], .chars [(80, 80)], .chars [(69, 69)], .chars [(95, 95)], .chars [(83, 83)], .chars [(69, 69)], .chars [(81, 81)], .chars [(85, 85)], .chars [(69, 69)], .chars [(78, 78)], .chars [(67, 67)], .chars [(69, 69)], .chars [(125, 125)]] [.chars [(41, 41)]] _ _
      (.seq [.chars [(40, 40)], .chars [(91, 91)], .chars [(94, 94)], .chars [(34, 34)], .chars [(93, 93)], .chars [(124, 124)], .chars [(123, 123)], .chars [(69, 69)], .chars [(83, 83)], .chars [(67, 67)], .chars [(65, 65)], .chars [(80, 80)], .chars [(69, 69)], .chars [(95, 95)], .chars [(83, 83)], .chars [(69, 69)], .chars [(81, 81)], .chars [(85, 85)], .chars [(69, 69)], .chars [(78, 78)], .chars [(67, 67)], .chars [(69, 69)]] [.chars [(125, 125)]] _ _
      (.seq [.chars [(40, 40)], .chars [(91, 91)], .chars [(94, 94)], .chars [(34, 34)], .chars [(93, 93)], .chars [(124, 124)], .chars [(123, 123)], .chars [(69, 69)], .chars [(83, 83)], .chars [(67, 67)], .chars [(65, 65)], .chars [(80, 80)], .chars [(69, 69)], .chars [(95, 95)], .chars [(83, 83)], .chars [(69, 69)], .chars [(81, 81)], .chars [(85, 85)], .chars [(69, 69)], .chars [(78, 78)], .chars [(67, 67)]] [.chars [(69, 69)]] _ _
      (.seq [.chars [(40, 40)], .chars [(91, 91)], .chars [(94, 94)], .chars [(34, 34)], .chars [(93, 93)], .chars [(124, 124)], .chars [(123, 123)], .chars [(69, 69)], .chars [(83, 83)], .chars [(67, 67)], .chars [(65, 65)], .chars [(80, 80)], .chars [(69, 69)], .chars [(95, 95)], .chars [(83, 83)], .chars [(69, 69)], .chars [(81, 81)], .chars [(85, 85)], .chars [(69, 69)], .chars [(78, 78)]] [.chars [(67, 67)]] _ _
      (.seq [.chars [(40, 40)], .chars [(91, 91)], .chars [(94, 94)], .chars [(34, 34)], .chars [(93, 93)], .chars [(124, 124)], .chars [(123, 123)], .chars [(69, 69)], .chars [(83, 83)], .chars [(67, 67)], .chars [(65, 65)], .chars [(80, 80)], .chars [(69, 69)], .chars [(95, 95)], .chars [(83, 83)], .chars [(69, 69)], .chars [(81, 81)], .chars [(85, 85)], .chars [(69, 69)]] [.chars [(78, 78)]] _ _
      (.seq [.chars [(40, 40)], .chars [(91, 91)], .chars [(94, 94)], .chars [(34, 34)], .chars [(93, 93)], .chars [(124, 124)], .chars [(123, 123)], .chars [(69, 69)], .chars [(83, 83)], .chars [(67, 67)], .chars [(65, 65)], .chars [(80, 80)], .chars [(69, 69)], .chars [(95, 95)], .chars [(83, 83)], .chars [(69, 69)], .chars [(81, 81)], .chars [(85, 85)]] [.chars [(69, 69)]] _ _
      (.seq [.chars [(40, 40)], .chars [(91, 91)], .chars [(94, 94)], .chars [(34, 34)], .chars [(93, 93)], .chars [(124, 124)], .chars [(123, 123)], .chars [(69, 69)], .chars [(83, 83)], .chars [(67, 67)], .chars [(65, 65)], .chars [(80, 80)], .chars [(69, 69)], .chars [(95, 95)], .chars [(83, 83)], .chars [(69, 69)], .chars [(81, 81)]] [.chars [(85, 85)]] _ _
      (.seq [.chars [(40, 40)], .chars [(91, 91)], .chars [(94, 94)], .chars [(34, 34)], .chars [(93, 93)], .chars [(124, 124)], .chars [(123, 123)], .chars [(69, 69)], .chars [(83, 83)], .chars [(67, 67)], .chars [(65, 65)], .chars [(80, 80)], .chars [(69, 69)], .chars [(95, 95)], .chars [(83, 83)], .chars [(69, 69)]] [.chars [(81, 81)]] _ _
      (.seq [.chars [(40, 40)], .chars [(91, 91)], .chars [(94, 94)], .chars [(34, 34)], .chars [(93, 93)], .chars [(124, 124)], .chars [(123, 123)], .chars [(69, 69)], .chars [(83, 83)], .chars [(67, 67)], .chars [(65, 65)], .chars [(80, 80)], .chars [(69, 69)], .chars [(95, 95)], .chars [(83, 83)]] [.chars [(69, 69)]] _ _
      (.seq [.chars [(40, 40)], .chars [(91, 91)], .chars [(94, 94)], .chars [(34, 34)], .chars [(93, 93)], .chars [(124, 124)], .chars [(123, 123)], .chars [(69, 69)], .chars [(83, 83)], .chars [(67, 67)], .chars [(65, 65)], .chars [(80, 80)], .chars [(69, 69)], .chars [(95, 95)]] [.chars [(83, 83)]] _ _
      (.seq [.chars [(40, 40)], .chars [(91, 91)], .chars [(94, 94)], .chars [(34, 34)], .chars [(93, 93)], .chars [(124, 124)], .chars [(123, 123)], .chars [(69, 69)], .chars [(83, 83)], .chars [(67, 67)], .chars [(65, 65)], .chars [(80, 80)], .chars [(69, 69)]] [.chars [(95, 95)]] _ _
      (.seq [.chars [(40, 40)], .chars [(91, 91)], .chars [(94, 94)], .chars [(34, 34)], .chars [(93, 93)], .chars [(124, 124)], .chars [(123, 123)], .chars [(69, 69)], .chars [(83, 83)], .chars [(67, 67)], .chars [(65, 65)], .chars [(80, 80)]] [.chars [(69, 69)]] _ _
      (.seq [.chars [(40, 40)], .chars [(91, 91)], .chars [(94, 94)], .chars [(34, 34)], .chars [(93, 93)], .chars [(124, 124)], .chars [(123, 123)], .chars [(69, 69)], .chars [(83, 83)], .chars [(67, 67)], .chars [(65, 65)]] [.chars [(80, 80)]] _ _
      (.seq [.chars [(40, 40)], .chars [(91, 91)], .chars [(94, 94)], .chars [(34, 34)], .chars [(93, 93)], .chars [(124, 124)], .chars [(123, 123)], .chars [(69, 69)], .chars [(83, 83)], .chars [(67, 67)]] [.chars [(65, 65)]] _ _
      (.seq [.chars [(40, 40)], .chars [(91, 91)], .chars [(94, 94)], .chars [(34, 34)], .chars [(93, 93)], .chars [(124, 124)], .chars [(123, 123)], .chars [(69, 69)], .chars [(83, 83)]] [.chars [(67, 67)]] _ _
      (.seq [.chars [(40, 40)], .chars [(91, 91)], .chars [(94, 94)], .chars [(34, 34)], .chars [(93, 93)], .chars [(124, 124)], .chars [(123, 123)], .chars [(69, 69)]] [.chars [(83, 83)]] _ _
      (.seq [.chars [(40, 40)], .chars [(91, 91)], .chars [(94, 94)], .chars [(34, 34)], .chars [(93, 93)], .chars [(124, 124)], .chars [(123, 123)]] [.chars [(69, 69)]] _ _
      (.seq [.chars [(40, 40)], .chars [(91, 91)], .chars [(94, 94)], .chars [(34, 34)], .chars [(93, 93)], .chars [(124, 124)]] [.chars [(123, 123)]] _ _
      (.seq [.chars [(40, 40)], .chars [(91, 91)], .chars [(94, 94)], .chars [(34, 34)], .chars [(93, 93)]] [.chars [(124, 124)]] _ _
      (.seq [.chars [(40, 40)], .chars [(91, 91)], .chars [(94, 94)], .chars [(34, 34)]] [.chars [(93, 93)]] _ _
      (.seq [.chars [(40, 40)], .chars [(91, 91)], .chars [(94, 94)]] [.chars [(34, 34)]] _ _
      (.seq [.chars [(40, 40)], .chars [(91, 91)]] [.chars [(94, 94)]] _ _
      (.seq [.chars [(40, 40)]] [.chars [(91, 91)]] _ _
      (.seq1 _ _ (.item _ _ (.set _ _ (.chars _))))
      (.item _ _ (.set _ _ (.chars _))))
      (.item _ _ (.set _ _ (.chars _))))
      (.item _ _ (.set _ _ (.chars _))))
      (.item _ _ (.set _ _ (.chars _))))
      (.item _ _ (.set _ _ (.chars _))))
      (.item _ _ (.set _ _ (.chars _))))
      (.item _ _ (.set _ _ (.chars _))))
      (.item _ _ (.set _ _ (.chars _))))
      (.item _ _ (.set _ _ (.chars _))))
      (.item _ _ (.set _ _ (.chars _))))
      (.item _ _ (.set _ _ (.chars _))))
      (.item _ _ (.set _ _ (.chars _))))
      (.item _ _ (.set _ _ (.chars _))))
      (.item _ _ (.set _ _ (.chars _))))
      (.item _ _ (.set _ _ (.chars _))))
      (.item _ _ (.set _ _ (.chars _))))
      (.item _ _ (.set _ _ (.chars _))))
      (.item _ _ (.set _ _ (.chars _))))
      (.item _ _ (.set _ _ (.chars _))))
      (.item _ _ (.set _ _ (.chars _))))
      (.item _ _ (.set _ _ (.chars _))))
      (.item _ _ (.set _ _ (.chars _))))
      (.item _ _ (.set _ _ (.chars _))))
      (.item _ _ (.set _ _ (.chars _))))))))

theorem means_open : Means Ex.env macros {} (chars "\\(\\*") openRe := by
  refine ⟨[.chars [(40, 40)], .chars [(42, 42)]], ?_, ?_⟩
  · have h : chars "\\(\\*" = [92, 40, 92, 42] := by decide
    rw [h]
    refine rd_esc 40 (by decide) (by decide) (by decide) ?_
    exact rd_esc 42 (by decide) (by decide) (by decide) (.done _ _)
  · exact .alt1 _ _ (.seq [.chars [(40, 40)]] [.chars [(42, 42)]] _ _
      (.seq1 _ _ (.item _ _ (.set _ _ (.chars _))))
      (.item _ _ (.set _ _ (.chars _))))

theorem means_close : Means Ex.env macros {} (chars "\\*\\)") closeRe := by
  refine ⟨[.chars [(42, 42)], .chars [(41, 41)]], ?_, ?_⟩
  · have h : chars "\\*\\)" = [92, 42, 92, 41] := by decide
    rw [h]
    refine rd_esc 42 (by decide) (by decide) (by decide) ?_
    exact rd_esc 41 (by decide) (by decide) (by decide) (.done _ _)
  · exact .alt1 _ _ (.seq [.chars [(42, 42)]] [.chars [(41, 41)]] _ _
      (.seq1 _ _ (.item _ _ (.set _ _ (.chars _))))
      (.item _ _ (.set _ _ (.chars _))))

theorem means_body : Means Ex.env macros {} (chars "[^(*]+|\\(|\\*") bodyRe := by
  refine ⟨[.chars [(0, 39), (41, 41), (43, 255)], .rep 1 none false, .bar, .chars [(40, 40)], .bar, .chars [(42, 42)]], ?_, ?_⟩
  · have h : chars "[^(*]+|\\(|\\*" = [91, 94, 40, 42, 93, 43, 124, 92, 40, 124, 92, 42] := by decide
    rw [h]
    refine rd_set set22 ?_
    refine .rep _ _ _ [43] 1 none _ _ (by decide) (by decide) ?_
    refine .bar _ _ _ _ _ ?_
    refine rd_esc 40 (by decide) (by decide) (by decide) ?_
    refine .bar _ _ _ _ _ ?_
    exact rd_esc 42 (by decide) (by decide) (by decide) (.done _ _)
  · exact .alt [.chars [(0, 39), (41, 41), (43, 255)], .rep 1 none false, .bar, .chars [(40, 40)]] [.chars [(42, 42)]] _ _
      (.alt [.chars [(0, 39), (41, 41), (43, 255)], .rep 1 none false] [.chars [(40, 40)]] _ _
      (.alt1 _ _ (.seq1 _ _ (.rep [.chars [(0, 39), (41, 41), (43, 255)]] _ 1 none false (.set _ _ (.chars _)))))
      (.seq1 _ _ (.item _ _ (.set _ _ (.chars _)))))
      (.seq1 _ _ (.item _ _ (.set _ _ (.chars _))))

theorem means_ws : Means Ex.env macros {} (chars "[ \t\n]+") wsRe := by
  refine ⟨[.chars [(9, 10), (32, 32)], .rep 1 none false], ?_, ?_⟩
  · have h : chars "[ \t\n]+" = [91, 32, 9, 10, 93, 43] := by decide
    rw [h]
    refine rd_set set23 ?_
    exact .rep _ _ _ [43] 1 none [] _ (by decide) (by decide) (.done _ _)
  · exact .alt1 _ _ (.seq1 _ _ (.rep [.chars [(9, 10), (32, 32)]] _ 1 none false (.set _ _ (.chars _))))

/-! ### The program -/

def calls : List Call :=
 [.pushState (chars "COMMENT"),
  .insertMacro (chars "ESCAPE_SEQUENCE") (chars "([\\\"'ntbr]|[0-9]{3}|x[0-9A-Fa-f]{2})"),
  .insertMacro (chars "OPERATOR_CHAR") (chars "[-!$%&*+./:<=>?@^|~]"),
  .push (chars "[A-Za-z_][A-Za-z_0-9']*") 1 65535,
  .push (chars "-?([0-9][0-9+]*|0([xX][0-9A-Fa-f][0-9A-Fa-f_]*|[oO][0-7][0-7_]*|[bB][01][01_]*))") 2 65535,
  .push (chars "-?[0-9][0-9_]*(\\.[0-9-])?([eE][-+]?[0-9][0-9_]*)?") 3 65535,
  .push (chars "'[^\\']|{ESCAPE_SEQUENCE}'") 4 65535,
  .push (chars "\"([^\\\"]|{ESCAPE_SEQUENCE})*\"") 5 65535,
  .push (chars "[-=<>@^|&+*/$%]{OPERATOR_CHAR}*") 8 65535,
  .push (chars "[!?~]{OPERATOR_CHAR}*") 9 65535,
  .push (chars "{OPERATOR_CHAR}") 10 65535,
  .push (chars "#\\d+(\"([^\\\"]|{ESCAPE_SEQUENCE})*\")?") 11 65535,
  .pushIn (chars "INITIAL,COMMENT") (chars "\\(\\*") none (chars ">COMMENT") 65535,
  .pushIn (chars "COMMENT") (chars "\\*\\)") (some 12) (chars "<") 65535,
  .pushIn (chars "COMMENT") (chars "[^(*]+|\\(|\\*") none (chars "COMMENT") 65535,
  .push (chars "[ \t\n]+") 65534 65535]

def stateNames : List (List Nat) := [chars "INITIAL", chars "COMMENT"]

theorem program1 : StateProgram Ex.env Ex.tr.npos {} (calls.take 1) stateNames [] [[], []] :=
  .state [] _ _ _ _ .nil (by decide) (by decide) (by decide)

theorem program3 : StateProgram Ex.env Ex.tr.npos {} (calls.take 3) stateNames macros [[], []] :=
  .mac (calls.take 2) _ (macros.drop 1) _ (chars "OPERATOR_CHAR") _ opRe
    (.mac (calls.take 1) _ [] _ (chars "ESCAPE_SEQUENCE") _ escRe program1 (by decide) rfl (by unfold TextOk; decide) means_esc rfl rfl)
    (by decide) (by decide) (by unfold TextOk; decide) means_op rfl rfl

theorem program4 : StateProgram Ex.env Ex.tr.npos {} (calls.take 4) stateNames macros [row0.take 1, []] :=
  .rule (calls.take 3) _ _ _ _ idRe 1 65535 program3 (by unfold TextOk; decide) means_id rfl (by decide) (by decide)

theorem program5 : StateProgram Ex.env Ex.tr.npos {} (calls.take 5) stateNames macros [row0.take 2, []] :=
  .rule (calls.take 4) _ _ _ _ intRe 2 65535 program4 (by unfold TextOk; decide) means_int rfl (by decide) (by decide)

theorem program6 : StateProgram Ex.env Ex.tr.npos {} (calls.take 6) stateNames macros [row0.take 3, []] :=
  .rule (calls.take 5) _ _ _ _ floatRe 3 65535 program5 (by unfold TextOk; decide) means_float rfl (by decide) (by decide)

theorem program7 : StateProgram Ex.env Ex.tr.npos {} (calls.take 7) stateNames macros [row0.take 4, []] :=
  .rule (calls.take 6) _ _ _ _ charRe 4 65535 program6 (by unfold TextOk; decide) means_char rfl (by decide) (by decide)

theorem program8 : StateProgram Ex.env Ex.tr.npos {} (calls.take 8) stateNames macros [row0.take 5, []] :=
  .rule (calls.take 7) _ _ _ _ strRe 5 65535 program7 (by unfold TextOk; decide) means_str rfl (by decide) (by decide)

theorem program9 : StateProgram Ex.env Ex.tr.npos {} (calls.take 9) stateNames macros [row0.take 6, []] :=
  .rule (calls.take 8) _ _ _ _ infixRe 8 65535 program8 (by unfold TextOk; decide) means_infix rfl (by decide) (by decide)

theorem program10 : StateProgram Ex.env Ex.tr.npos {} (calls.take 10) stateNames macros [row0.take 7, []] :=
  .rule (calls.take 9) _ _ _ _ prefixRe 9 65535 program9 (by unfold TextOk; decide) means_prefix rfl (by decide) (by decide)

theorem program11 : StateProgram Ex.env Ex.tr.npos {} (calls.take 11) stateNames macros [row0.take 8, []] :=
  .rule (calls.take 10) _ _ _ _ opcRe 10 65535 program10 (by unfold TextOk; decide) means_opc rfl (by decide) (by decide)

theorem program12 : StateProgram Ex.env Ex.tr.npos {} (calls.take 12) stateNames macros [row0.take 9, []] :=
  .rule (calls.take 11) _ _ _ _ dirRe 11 65535 program11 (by unfold TextOk; decide) means_dir rfl (by decide) (by decide)

theorem program13 : StateProgram Ex.env Ex.tr.npos {} (calls.take 13) stateNames macros [row0.take 10, row1.take 1] :=
  .ruleIn (calls.take 12) _ _ _ _ [0, 1] _ openRe none _ _ 65535 program12
    (.list _ _ (.more (chars "INITIAL") 0 (chars "COMMENT") [1] rfl (.one _ 1 rfl))) (by unfold TextOk; decide) means_open rfl (by decide) (by decide)
    (.push (chars "COMMENT") 1 rfl)

theorem program14 : StateProgram Ex.env Ex.tr.npos {} (calls.take 14) stateNames macros [row0.take 10, row1.take 2] :=
  .ruleIn (calls.take 13) _ _ _ _ [1] _ closeRe (some 12) _ _ 65535 program13
    (.list _ _ (.one _ 1 rfl)) (by unfold TextOk; decide) means_close rfl (by decide) (by decide) .pop

theorem program15 : StateProgram Ex.env Ex.tr.npos {} (calls.take 15) stateNames macros [row0.take 10, row1] :=
  .ruleIn (calls.take 14) _ _ _ _ [1] _ bodyRe none _ _ 65535 program14
    (.list _ _ (.one _ 1 rfl)) (by unfold TextOk; decide) means_body rfl (by decide) (by decide) (.goto _ 1 rfl)

theorem program : StateProgram Ex.env Ex.tr.npos {} calls stateNames macros xss :=
  .rule (calls.take 15) _ _ _ _ wsRe 65534 65535 program15 (by unfold TextOk; decide) means_ws rfl (by decide) (by decide)

/-! ### The object after the calls -/

theorem done_push {E : TokEnv} {tr : Traits} {o o' : RulesObj} {w : List Nat} {i u : Nat}
    (h : (Call.push w i u).run E tr o = (o', .ok ())) : Calc.done (o.pushInitial E tr w i u) = .ok o' := by
  simp only [Call.run] at h
  rw [h]
  rfl

theorem done_macro {E : TokEnv} {tr : Traits} {o o' : RulesObj} {n w : List Nat}
    (h : (Call.insertMacro n w).run E tr o = (o', .ok ())) : Calc.done (o.insertMacro E n w) = .ok o' := by
  simp only [Call.run] at h
  rw [h]
  rfl

theorem rules_eq {o : RulesObj} (h : AllOk Ex.env Ex.tr (RulesObj.new Ex.tr {}) calls o) :
    rules Ex.env Ex.tr = .ok o ∧ o = Ex.runs calls Ex.obj0 := by
  refine ⟨?_, (Calc.runs_allOk h).symm⟩
  obtain ⟨o15, h, g16⟩ := Wc.allOk_snoc (cs := calls.take 15) h
  obtain ⟨o14, h, g15⟩ := Wc.allOk_snoc (cs := calls.take 14) h
  obtain ⟨o13, h, g14⟩ := Wc.allOk_snoc (cs := calls.take 13) h
  obtain ⟨o12, h, g13⟩ := Wc.allOk_snoc (cs := calls.take 12) h
  obtain ⟨o11, h, g12⟩ := Wc.allOk_snoc (cs := calls.take 11) h
  obtain ⟨o10, h, g11⟩ := Wc.allOk_snoc (cs := calls.take 10) h
  obtain ⟨o9, h, g10⟩ := Wc.allOk_snoc (cs := calls.take 9) h
  obtain ⟨o8, h, g9⟩ := Wc.allOk_snoc (cs := calls.take 8) h
  obtain ⟨o7, h, g8⟩ := Wc.allOk_snoc (cs := calls.take 7) h
  obtain ⟨o6, h, g7⟩ := Wc.allOk_snoc (cs := calls.take 6) h
  obtain ⟨o5, h, g6⟩ := Wc.allOk_snoc (cs := calls.take 5) h
  obtain ⟨o4, h, g5⟩ := Wc.allOk_snoc (cs := calls.take 4) h
  obtain ⟨o3, h, g4⟩ := Wc.allOk_snoc (cs := calls.take 3) h
  obtain ⟨o2, h, g3⟩ := Wc.allOk_snoc (cs := calls.take 2) h
  obtain ⟨o1, h, g2⟩ := Wc.allOk_snoc (cs := calls.take 1) h
  obtain ⟨o0, h, g1⟩ := Wc.allOk_snoc (cs := []) h
  have := allOk_nil h
  subst this
  unfold rules
  rw [show Ex.tr.npos = 65535 from rfl, Calc.done_state g1]; dsimp only [bind, Except.bind]
  rw [done_macro g2]; dsimp only
  rw [done_macro g3]; dsimp only
  rw [done_push g4]; dsimp only
  rw [done_push g5]; dsimp only
  rw [done_push g6]; dsimp only
  rw [done_push g7]; dsimp only
  rw [done_push g8]; dsimp only
  rw [done_push g9]; dsimp only
  rw [done_push g10]; dsimp only
  rw [done_push g11]; dsimp only
  rw [done_push g12]; dsimp only
  rw [Calc.done_named g13]; dsimp only
  rw [Calc.done_named g14]; dsimp only
  rw [Calc.done_named g15]; dsimp only
  rw [done_push g16]

end Lexertl.Ocaml

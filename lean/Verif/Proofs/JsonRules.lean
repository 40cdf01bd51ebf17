import Verif.Proofs.CalcLex
import Verif.Props.Unicode
import Verif.Model.Json
import Verif.Spec.Json

/-
The rules of the JSON example, and what they match.
-/
namespace Lexertl.Json
open Spec Spec.Json Reading Props

abbrev E := Ex.envUni

/-! ### Expressions -/

def cset (c : Nat) : Re := .chars [(c, c)]
def strSet : List (Nat × Nat) := [(32, 33), (35, 91), (93, 0x10ffff)]
def escSet : List (Nat × Nat) := [(34, 34), (47, 47), (92, 92), (98, 98), (102, 102), (110, 110), (114, 114), (116, 116)]
def hexSet : List (Nat × Nat) := [(48, 57), (65, 70), (97, 102)]
def digSet : List (Nat × Nat) := [(48, 57)]
def wsSet : List (Nat × Nat) := [(9, 10), (13, 13), (32, 32)]

def escRe : Re := .seq (cset 92) (.alt (.chars escSet) (.seq (cset 117) (.rep (.chars hexSet) 4 (some 4) false)))
def strRe : Re := .seq (.seq (cset 34) (.star (.alt (.chars strSet) escRe) false)) (cset 34)
def intRe : Re := .alt (cset 48) (.seq (.chars [(49, 57)]) (.star (.chars digSet) false))
def fracRe : Re := .seq (cset 46) (.plus (.chars digSet) false)
def expRe : Re := .seq (.seq (.chars [(69, 69), (101, 101)]) (.opt (.chars [(43, 43), (45, 45)]) false)) (.plus (.chars digSet) false)
def numRe : Re := .seq (.seq (.seq (.opt (cset 45) false) intRe) (.opt fracRe false)) (.opt expRe false)
def trueRe : Re := .seq (.seq (.seq (cset 116) (cset 114)) (cset 117)) (cset 101)
def falseRe : Re := .seq (.seq (.seq (.seq (cset 102) (cset 97)) (cset 108)) (cset 115)) (cset 101)
def nullRe : Re := .seq (.seq (.seq (cset 110) (cset 117)) (cset 108)) (cset 108)

/-- What a rule is for. -/
inductive Form
  | str
  | num
  | bool
  | null
  | ch (c : Nat)
  | ws
  deriving DecidableEq, Repr

def Form.re : Form → Re
  | .str => strRe
  | .num => numRe
  | .bool => .alt trueRe falseRe
  | .null => nullRe
  | .ch c => cset c
  | .ws => .plus (.chars wsSet) false

structure Entry where
  form : Form
  id : Nat
  next : Nat
  push : Nat
  pop : Bool
  deriving DecidableEq, Repr

def Entry.rule (e : Entry) : SRule := ruleOf e.form.re e.id 65535 e.next e.push e.pop

/-- Skipping white space. -/
def ews (i : Nat) : Entry := ⟨.ws, 65534, i, 65535, false⟩

def table : List (List Entry) :=
  [[⟨.ch 123, 4, 2, 1, false⟩, ⟨.ch 91, 7, 7, 1, false⟩, ews 0],
   [ews 1],
   [⟨.ch 125, 6, 65535, 65535, true⟩, ⟨.str, 5, 4, 65535, false⟩, ews 2],
   [⟨.str, 5, 4, 65535, false⟩, ews 3],
   [⟨.ch 58, 65534, 5, 65535, false⟩, ews 4],
   [⟨.str, 1, 6, 65535, false⟩, ⟨.num, 2, 6, 65535, false⟩, ⟨.bool, 3, 6, 65535, false⟩, ⟨.null, 9, 6, 65535, false⟩, ⟨.ch 123, 4, 2, 6, false⟩,
    ⟨.ch 91, 7, 7, 6, false⟩, ews 5],
   [⟨.ch 125, 6, 65535, 65535, true⟩, ⟨.ch 44, 65534, 3, 65535, false⟩, ews 6],
   [⟨.ch 93, 8, 65535, 65535, true⟩, ⟨.str, 1, 8, 65535, false⟩, ⟨.num, 2, 8, 65535, false⟩, ⟨.bool, 3, 8, 65535, false⟩, ⟨.null, 9, 8, 65535, false⟩,
    ⟨.ch 123, 4, 2, 8, false⟩, ⟨.ch 91, 7, 7, 8, false⟩, ews 7],
   [⟨.ch 93, 8, 65535, 65535, true⟩, ⟨.ch 44, 65534, 9, 65535, false⟩, ews 8],
   [⟨.str, 1, 8, 65535, false⟩, ⟨.num, 2, 8, 65535, false⟩, ⟨.bool, 3, 8, 65535, false⟩, ⟨.null, 9, 8, 65535, false⟩,
    ⟨.ch 123, 4, 2, 8, false⟩, ⟨.ch 91, 7, 7, 8, false⟩, ews 9]]

def xss : List (List SRule) := table.map (·.map Entry.rule)

/-! ### Reading the texts -/

theorem isSet_chr (c : Nat) : IsSet [(c, c)] (Closed E false (· = c)) := by
  refine ⟨⟨by simp, by simp⟩, fun x => ?_⟩
  simp only [Mem, Closed, List.mem_singleton, exists_eq_left, Bool.false_eq_true, false_and, or_false]
  omega

theorem isSet_digit : IsSet digSet (Closed E false Digit) := by
  refine ⟨⟨by decide, by decide⟩, fun c => ?_⟩
  simp [Closed, Mem, digSet, Digit]

abbrev Rd (s : Bool) (fs : List ReFlags) (w : List Nat) (ls : List Lx) : Prop := Spec.Reads E s {} fs false w ls

theorem rd_char {s : Bool} {fs : List ReFlags} {w : List Nat} {ls : List Lx} (c : Nat) (hc : c ∉ metaChars) (h : Rd false fs w ls) :
    Rd s fs (c :: w) (.chars [(c, c)] :: ls) :=
  .atom s {} fs false [c] _ _ w ls (.plain _ _ _ hc (by simp)) (isSet_chr c) h

theorem rd_back {s : Bool} {fs : List ReFlags} {w : List Nat} {ls : List Lx} (h : Rd false fs w ls) :
    Rd s fs (92 :: 92 :: w) (.chars [(92, 92)] :: ls) :=
  .atom s {} fs false [92, 92] _ _ w ls (.esc _ _ [92] 92 _ (.self 92 _ (by decide) (by decide) (by decide))) (isSet_chr 92) h

theorem rd_digit {s : Bool} {fs : List ReFlags} {w : List Nat} {ls : List Lx} (h : Rd false fs w ls) :
    Rd s fs (92 :: 100 :: w) (.chars digSet :: ls) :=
  .atom s {} fs false [92, 100] _ _ w ls (.short _ _ 100 _ _ .digit ⟨48, .inl (by decide)⟩) isSet_digit h

/-- The text in brackets, after the first, means the charset. -/
def SetText (body : List Nat) (t : List (Nat × Nat)) : Prop := ∃ S, Brackets E false .whole body S [] ∧ IsSet t S

theorem rd_set {s : Bool} {fs : List ReFlags} {body w : List Nat} {t : List (Nat × Nat)} {ls : List Lx} (ht : SetText body t) (h : Rd false fs w ls) :
    Rd s fs (91 :: body ++ w) (.chars t :: ls) := by
  obtain ⟨S, h1, h2⟩ := ht
  exact .atom s {} fs false (91 :: body) S t w ls (.set _ _ _ _ h1) h2 h

theorem one_set {c : Nat} (h1 : c ≠ 92) (h2 : c ≠ 94) : SetText [c, 93] [(c, c)] :=
  ⟨_, .pos _ _ (by simpa using h2) (.last true [c] _ (.inl rfl) (.char [c] c _ (.self c _ h1 (by simp)) (by decide))) ⟨c, .inl rfl⟩, isSet_chr c⟩

theorem it_chr (c : Nat) {rest : List Nat} (h1 : c ≠ 92) (h2 : c ≠ 91) (h3 : NoDash rest) : Brackets E false .item [c] (Closed E false (· = c)) rest :=
  .char [c] c _ (.self c _ h1 (by simp [h2])) h3

theorem it_back {rest : List Nat} (h3 : NoDash rest) : Brackets E false .item [92, 92] (Closed E false (· = 92)) rest :=
  .char [92, 92] 92 _ (.esc [92] 92 _ (.self 92 _ (by decide) (by decide) (by decide))) h3

theorem it_range (x y : Nat) {rest : List Nat} (h1 : x ∉ [91, 92]) (h2 : y ∉ [91, 92, 93]) (h : x ≤ y) :
    Brackets E false .item [x, 45, y] (Closed E false (fun c => x ≤ c ∧ c ≤ y)) rest := by
  simp only [List.mem_cons, List.not_mem_nil, or_false, not_or] at h1 h2
  exact .range [x] x [y] y rest (.self x _ h1.2 (by simp [h1.1])) (.self y _ h2.2.1 (by simp [h2.1])) (by simp [h2.2.2]) h

theorem closed_iff {S : Nat → Prop} {c : Nat} : Closed E false S c ↔ S c := by simp [Closed]

local macro "charset" : tactic => `(tactic| (
      refine ⟨⟨by decide, by decide⟩, fun c => ?_⟩
      simp only [Mem, closed_iff, List.mem_cons, List.not_mem_nil, or_false, exists_eq_or_imp, exists_eq_left, strSet, escSet, hexSet, wsSet]
      try omega))

theorem set_quote2 : SetText [34, 92, 92, 93] [(34, 34), (92, 92)] := by
  refine ⟨_, .pos _ _ (by decide) (.more true [34] _ [92, 92, 93] _ (.inl rfl) (it_chr 34 (by decide) (by decide) (by decide))
    (.last false [92, 92] _ (.inr (by decide)) (it_back (by decide)))) ⟨34, .inl (.inl rfl)⟩, ?_⟩
  charset

theorem set_esc : SetText [34, 92, 92, 47, 98, 102, 110, 114, 116, 93] escSet := by
  refine ⟨_, .pos _ _ (by decide) (.more true [34] _ [92, 92, 47, 98, 102, 110, 114, 116, 93] _ (.inl rfl) (it_chr 34 (by decide) (by decide) (by decide))
    (.more false [92, 92] _ [47, 98, 102, 110, 114, 116, 93] _ (.inr (by decide)) (it_back (by decide))
    (.more false [47] _ [98, 102, 110, 114, 116, 93] _ (.inr (by decide)) (it_chr 47 (by decide) (by decide) (by decide))
    (.more false [98] _ [102, 110, 114, 116, 93] _ (.inr (by decide)) (it_chr 98 (by decide) (by decide) (by decide))
    (.more false [102] _ [110, 114, 116, 93] _ (.inr (by decide)) (it_chr 102 (by decide) (by decide) (by decide))
    (.more false [110] _ [114, 116, 93] _ (.inr (by decide)) (it_chr 110 (by decide) (by decide) (by decide))
    (.more false [114] _ [116, 93] _ (.inr (by decide)) (it_chr 114 (by decide) (by decide) (by decide))
    (.last false [116] _ (.inr (by decide)) (it_chr 116 (by decide) (by decide) (by decide)))))))))) ⟨34, .inl (.inl rfl)⟩, ?_⟩
  charset

theorem set_hex : SetText [48, 45, 57, 97, 45, 102, 65, 45, 70, 93] hexSet := by
  refine ⟨_, .pos _ _ (by decide) (.more true [48, 45, 57] _ [97, 45, 102, 65, 45, 70, 93] _ (.inl rfl) (it_range 48 57 (by decide) (by decide) (by decide))
    (.more false [97, 45, 102] _ [65, 45, 70, 93] _ (.inr (by decide)) (it_range 97 102 (by decide) (by decide) (by decide))
    (.last false [65, 45, 70] _ (.inr (by decide)) (it_range 65 70 (by decide) (by decide) (by decide))))) ⟨48, .inl (.inl (by decide))⟩, ?_⟩
  charset

theorem set_first : SetText [49, 45, 57, 93] [(49, 57)] := by
  refine ⟨_, .pos _ _ (by decide) (.last true [49, 45, 57] _ (.inl rfl) (it_range 49 57 (by decide) (by decide) (by decide))) ⟨49, .inl (by decide)⟩, ?_⟩
  charset

theorem set_e : SetText [101, 69, 93] [(69, 69), (101, 101)] := by
  refine ⟨_, .pos _ _ (by decide) (.more true [101] _ [69, 93] _ (.inl rfl) (it_chr 101 (by decide) (by decide) (by decide))
    (.last false [69] _ (.inr (by decide)) (it_chr 69 (by decide) (by decide) (by decide)))) ⟨101, .inl (.inl rfl)⟩, ?_⟩
  charset

theorem set_sign : SetText [45, 43, 93] [(43, 43), (45, 45)] := by
  refine ⟨_, .pos _ _ (by decide) (.more true [45] _ [43, 93] _ (.inl rfl) (it_chr 45 (by decide) (by decide) (by decide))
    (.last false [43] _ (.inr (by decide)) (it_chr 43 (by decide) (by decide) (by decide)))) ⟨45, .inl (.inl rfl)⟩, ?_⟩
  charset

theorem set_ws : SetText [32, 9, 13, 10, 93] wsSet := by
  refine ⟨_, .pos _ _ (by decide) (.more true [32] _ [9, 13, 10, 93] _ (.inl rfl) (it_chr 32 (by decide) (by decide) (by decide))
    (.more false [9] _ [13, 10, 93] _ (.inr (by decide)) (it_chr 9 (by decide) (by decide) (by decide))
    (.more false [13] _ [10, 93] _ (.inr (by decide)) (it_chr 13 (by decide) (by decide) (by decide))
    (.last false [10] _ (.inr (by decide)) (it_chr 10 (by decide) (by decide) (by decide)))))) ⟨32, .inl (.inl rfl)⟩, ?_⟩
  charset

theorem set_from_space : SetText [32, 45, 92, 120, 49, 48, 102, 102, 102, 102, 93] [(32, 0x10ffff)] := by
  refine ⟨_, .pos _ _ (by decide) (.last true [32, 45, 92, 120, 49, 48, 102, 102, 102, 102] _ (.inl rfl)
    (.range [32] 32 [92, 120, 49, 48, 102, 102, 102, 102] 0x10ffff [93] (.self 32 _ (by decide) (by decide))
      (.esc [120, 49, 48, 102, 102, 102, 102] 0x10ffff [93] (.hex [49, 48, 102, 102, 102, 102] [93] (by decide) (by decide) (by decide) (by decide)))
      (by decide) (by decide))) ⟨32, .inl (by decide)⟩, ?_⟩
  charset

/-! ### What the texts mean -/

theorem means_str : Means E [] {} (chars "[\"]([ -\\x10ffff]{-}[\"\\\\]|\\\\([\"\\\\/bfnrt]|u[0-9a-fA-F]{4}))*[\"]") strRe := by
  refine ⟨[.chars [(34, 34)], .opn, .chars [(32, 0x10ffff)], .minus, .chars [(34, 34), (92, 92)], .bar, .chars [(92, 92)], .opn, .chars escSet, .bar,
    .chars [(117, 117)], .chars hexSet, .rep 4 (some 4) false, .cls, .cls, .rep 0 none false, .chars [(34, 34)]], ?_, ?_⟩
  · have h : chars "[\"]([ -\\x10ffff]{-}[\"\\\\]|\\\\([\"\\\\/bfnrt]|u[0-9a-fA-F]{4}))*[\"]" =
        [91, 34, 93, 40, 91, 32, 45, 92, 120, 49, 48, 102, 102, 102, 102, 93, 123, 45, 125, 91, 34, 92, 92, 93, 124, 92, 92, 40, 91, 34, 92, 92, 47, 98, 102,
          110, 114, 116, 93, 124, 117, 91, 48, 45, 57, 97, 45, 102, 65, 45, 70, 93, 123, 52, 125, 41, 41, 42, 91, 34, 93] := by decide
    rw [h]
    refine rd_set (one_set (by decide) (by decide)) ?_
    refine .opn _ _ _ _ _ (by decide) ?_
    refine rd_set set_from_space ?_
    refine .minus _ _ _ _ _ ?_
    refine rd_set set_quote2 ?_
    refine .bar _ _ _ _ _ ?_
    refine rd_back ?_
    refine .opn _ _ _ _ _ (by decide) ?_
    refine rd_set set_esc ?_
    refine .bar _ _ _ _ _ ?_
    refine rd_char 117 (by decide) ?_
    refine rd_set set_hex ?_
    refine .count _ _ _ [52] 4 (some 4) _ _ (.exact [52] (by unfold IsDec; decide) (by decide) (by decide)) (by decide) ?_
    refine .cls _ _ _ _ _ _ ?_
    refine .cls _ _ _ _ _ _ ?_
    refine .rep _ _ _ [42] 0 none _ _ (by decide) (by decide) ?_
    exact rd_set (w := []) (one_set (by decide) (by decide)) (.done _ _)
  · refine .alt1 _ _ (.seq ([.chars [(34, 34)], .opn, .chars [(32, 0x10ffff)], .minus, .chars [(34, 34), (92, 92)], .bar, .chars [(92, 92)], .opn,
      .chars escSet, .bar, .chars [(117, 117)], .chars hexSet, .rep 4 (some 4) false, .cls, .cls, .rep 0 none false]) [.chars [(34, 34)]] _ _ ?_
      (.item _ _ (.set _ _ (.chars _))))
    refine .seq [.chars [(34, 34)]] ([.opn, .chars [(32, 0x10ffff)], .minus, .chars [(34, 34), (92, 92)], .bar, .chars [(92, 92)], .opn,
      .chars escSet, .bar, .chars [(117, 117)], .chars hexSet, .rep 4 (some 4) false, .cls, .cls, .rep 0 none false]) _ _
      (.seq1 _ _ (.item _ _ (.set _ _ (.chars _)))) ?_
    refine .rep ([.opn, .chars [(32, 0x10ffff)], .minus, .chars [(34, 34), (92, 92)], .bar, .chars [(92, 92)], .opn,
      .chars escSet, .bar, .chars [(117, 117)], .chars hexSet, .rep 4 (some 4) false, .cls, .cls]) _ 0 none false ?_
    refine .paren ([.chars [(32, 0x10ffff)], .minus, .chars [(34, 34), (92, 92)], .bar, .chars [(92, 92)], .opn,
      .chars escSet, .bar, .chars [(117, 117)], .chars hexSet, .rep 4 (some 4) false, .cls]) _ ?_
    refine .alt [.chars [(32, 0x10ffff)], .minus, .chars [(34, 34), (92, 92)]] ([.chars [(92, 92)], .opn,
      .chars escSet, .bar, .chars [(117, 117)], .chars hexSet, .rep 4 (some 4) false, .cls]) _ _
      (.alt1 _ _ (.seq1 _ _ (.item _ _ (.set _ _ (.minus [.chars [(32, 0x10ffff)]] _ _ _ strSet (.chars _) (.chars _) ?_ (by decide)))))) ?_
    · charset
    refine .seq [.chars [(92, 92)]] [.opn, .chars escSet, .bar, .chars [(117, 117)], .chars hexSet, .rep 4 (some 4) false, .cls] _ _
      (.seq1 _ _ (.item _ _ (.set _ _ (.chars _)))) (.item _ _ ?_)
    refine .paren [.chars escSet, .bar, .chars [(117, 117)], .chars hexSet, .rep 4 (some 4) false] _ ?_
    refine .alt [.chars escSet] [.chars [(117, 117)], .chars hexSet, .rep 4 (some 4) false] _ _ (.alt1 _ _ (.seq1 _ _ (.item _ _ (.set _ _ (.chars _))))) ?_
    refine .seq [.chars [(117, 117)]] [.chars hexSet, .rep 4 (some 4) false] _ _ (.seq1 _ _ (.item _ _ (.set _ _ (.chars _)))) ?_
    exact .rep [.chars hexSet] _ 4 (some 4) false (.set _ _ (.chars _))

theorem means_num : Means E [(chars "STRING", strRe)] {} (chars "-?(0|[1-9]\\d*)([.]\\d+)?([eE][-+]?\\d+)?") numRe := by
  refine ⟨[.chars [(45, 45)], .rep 0 (some 1) false, .opn, .chars [(48, 48)], .bar, .chars [(49, 57)], .chars digSet, .rep 0 none false, .cls,
    .opn, .chars [(46, 46)], .chars digSet, .rep 1 none false, .cls, .rep 0 (some 1) false,
    .opn, .chars [(69, 69), (101, 101)], .chars [(43, 43), (45, 45)], .rep 0 (some 1) false, .chars digSet, .rep 1 none false, .cls,
    .rep 0 (some 1) false], ?_, ?_⟩
  · have h : chars "-?(0|[1-9]\\d*)([.]\\d+)?([eE][-+]?\\d+)?" =
        [45, 63, 40, 48, 124, 91, 49, 45, 57, 93, 92, 100, 42, 41, 40, 91, 46, 93, 92, 100, 43, 41, 63, 40, 91, 101, 69, 93, 91, 45, 43, 93, 63, 92, 100, 43,
          41, 63] := by decide
    rw [h]
    refine rd_char 45 (by decide) ?_
    refine .rep _ _ _ [63] 0 (some 1) _ _ (by decide) (by decide) ?_
    refine .opn _ _ _ _ _ (by decide) ?_
    refine rd_char 48 (by decide) ?_
    refine .bar _ _ _ _ _ ?_
    refine rd_set set_first ?_
    refine rd_digit ?_
    refine .rep _ _ _ [42] 0 none _ _ (by decide) (by decide) ?_
    refine .cls _ _ _ _ _ _ ?_
    refine .opn _ _ _ _ _ (by decide) ?_
    refine rd_set (one_set (by decide) (by decide)) ?_
    refine rd_digit ?_
    refine .rep _ _ _ [43] 1 none _ _ (by decide) (by decide) ?_
    refine .cls _ _ _ _ _ _ ?_
    refine .rep _ _ _ [63] 0 (some 1) _ _ (by decide) (by decide) ?_
    refine .opn _ _ _ _ _ (by decide) ?_
    refine rd_set set_e ?_
    refine rd_set set_sign ?_
    refine .rep _ _ _ [63] 0 (some 1) _ _ (by decide) (by decide) ?_
    refine rd_digit ?_
    refine .rep _ _ _ [43] 1 none _ _ (by decide) (by decide) ?_
    refine .cls _ _ _ _ _ _ ?_
    exact .rep _ _ _ [63] 0 (some 1) [] _ (by decide) (by decide) (.done _ _)
  · refine .alt1 _ _ (.seq [.chars [(45, 45)], .rep 0 (some 1) false, .opn, .chars [(48, 48)], .bar, .chars [(49, 57)], .chars digSet, .rep 0 none false,
      .cls, .opn, .chars [(46, 46)], .chars digSet, .rep 1 none false, .cls, .rep 0 (some 1) false]
      [.opn, .chars [(69, 69), (101, 101)], .chars [(43, 43), (45, 45)], .rep 0 (some 1) false, .chars digSet, .rep 1 none false, .cls,
      .rep 0 (some 1) false] _ _ ?_ ?_)
    · refine .seq [.chars [(45, 45)], .rep 0 (some 1) false, .opn, .chars [(48, 48)], .bar, .chars [(49, 57)], .chars digSet, .rep 0 none false, .cls]
        [.opn, .chars [(46, 46)], .chars digSet, .rep 1 none false, .cls, .rep 0 (some 1) false] _ _ ?_ ?_
      · refine .seq [.chars [(45, 45)], .rep 0 (some 1) false] [.opn, .chars [(48, 48)], .bar, .chars [(49, 57)], .chars digSet, .rep 0 none false, .cls] _ _
          (.seq1 _ _ (.rep [.chars [(45, 45)]] _ 0 (some 1) false (.set _ _ (.chars _)))) (.item _ _ ?_)
        refine .paren [.chars [(48, 48)], .bar, .chars [(49, 57)], .chars digSet, .rep 0 none false] _ ?_
        refine .alt [.chars [(48, 48)]] [.chars [(49, 57)], .chars digSet, .rep 0 none false] _ _ (.alt1 _ _ (.seq1 _ _ (.item _ _ (.set _ _ (.chars _))))) ?_
        exact .seq [.chars [(49, 57)]] [.chars digSet, .rep 0 none false] _ _ (.seq1 _ _ (.item _ _ (.set _ _ (.chars _))))
          (.rep [.chars digSet] _ 0 none false (.set _ _ (.chars _)))
      · refine .rep [.opn, .chars [(46, 46)], .chars digSet, .rep 1 none false, .cls] _ 0 (some 1) false ?_
        refine .paren [.chars [(46, 46)], .chars digSet, .rep 1 none false] _ (.alt1 _ _ ?_)
        exact .seq [.chars [(46, 46)]] [.chars digSet, .rep 1 none false] _ _ (.seq1 _ _ (.item _ _ (.set _ _ (.chars _))))
          (.rep [.chars digSet] _ 1 none false (.set _ _ (.chars _)))
    · refine .rep [.opn, .chars [(69, 69), (101, 101)], .chars [(43, 43), (45, 45)], .rep 0 (some 1) false, .chars digSet, .rep 1 none false, .cls] _ 0
        (some 1) false ?_
      refine .paren [.chars [(69, 69), (101, 101)], .chars [(43, 43), (45, 45)], .rep 0 (some 1) false, .chars digSet, .rep 1 none false] _ (.alt1 _ _ ?_)
      refine .seq [.chars [(69, 69), (101, 101)], .chars [(43, 43), (45, 45)], .rep 0 (some 1) false] [.chars digSet, .rep 1 none false] _ _ ?_
        (.rep [.chars digSet] _ 1 none false (.set _ _ (.chars _)))
      exact .seq [.chars [(69, 69), (101, 101)]] [.chars [(43, 43), (45, 45)], .rep 0 (some 1) false] _ _ (.seq1 _ _ (.item _ _ (.set _ _ (.chars _))))
        (.rep [.chars [(43, 43), (45, 45)]] _ 0 (some 1) false (.set _ _ (.chars _)))

/-- A word. -/
theorem rd_word {fs : List ReFlags} {v : List Nat} {ls : List Lx} (h : Rd false fs v ls) : ∀ (w : List Nat) (s : Bool), (∀ c ∈ w, c ∉ metaChars) →
    (w = [] → s = false) → Rd s fs (w ++ v) (w.map (fun c => .chars [(c, c)]) ++ ls)
  | [], s, _, hs => by rw [hs rfl]; exact h
  | c :: w, s, hw, _ => rd_char c (hw c (by simp)) (rd_word h w false (fun d hd => hw d (by simp [hd])) (fun _ => rfl))

/-- The expression of a word. -/
def wordRe : Re → List Nat → Re
  | r, [] => r
  | r, c :: w => wordRe (.seq r (cset c)) w

theorem parses_word {M : List (List Nat × Re)} : ∀ (w : List Nat) (ls : List Lx) (r : Re), Parses M .seq ls r →
    Parses M .seq (ls ++ w.map fun c => .chars [(c, c)]) (wordRe r w)
  | [], ls, r, h => by rw [List.map_nil, List.append_nil]; exact h
  | c :: w, ls, r, h => by
    have := parses_word w (ls ++ [.chars [(c, c)]]) (.seq r (cset c)) (.seq _ _ _ _ h (.item _ _ (.set _ _ (.chars _))))
    rw [List.append_assoc] at this
    exact this

theorem parses_word' {M : List (List Nat × Re)} (c : Nat) (w : List Nat) :
    Parses M .seq ((c :: w).map fun c => .chars [(c, c)]) (wordRe (cset c) w) :=
  parses_word w [.chars [(c, c)]] (cset c) (.seq1 _ _ (.item _ _ (.set _ _ (.chars _))))

theorem means_bool {M : List (List Nat × Re)} : Means E M {} (chars "true|false") (Form.re .bool) := by
  refine ⟨[116, 114, 117, 101].map (fun c => .chars [(c, c)]) ++ .bar :: [102, 97, 108, 115, 101].map (fun c => .chars [(c, c)]), ?_, ?_⟩
  · have h : chars "true|false" = [116, 114, 117, 101] ++ 124 :: [102, 97, 108, 115, 101] := by decide
    rw [h]
    refine rd_word (.bar _ _ _ _ _ ?_) _ _ (by decide) (by decide)
    have := rd_word (fs := []) (.done false {}) [102, 97, 108, 115, 101] false (by decide) (by decide)
    rw [List.append_nil, List.append_nil] at this
    exact this
  · exact .alt _ _ _ _ (.alt1 _ _ (parses_word' 116 [114, 117, 101])) (parses_word' 102 [97, 108, 115, 101])

theorem means_null {M : List (List Nat × Re)} : Means E M {} (chars "null") nullRe := by
  refine ⟨[110, 117, 108, 108].map (fun c => .chars [(c, c)]), ?_, .alt1 _ _ (parses_word' 110 [117, 108, 108])⟩
  have h : chars "null" = [110, 117, 108, 108] := by decide
  rw [h]
  have := rd_word (fs := []) (.done false {}) [110, 117, 108, 108] true (by decide) (by decide)
  rw [List.append_nil, List.append_nil] at this
  exact this

theorem means_set {M : List (List Nat × Re)} {body : List Nat} {t : List (Nat × Nat)} (h : SetText body t) : Means E M {} (91 :: body) (.chars t) := by
  refine ⟨[.chars t], ?_, .alt1 _ _ (.seq1 _ _ (.item _ _ (.set _ _ (.chars t))))⟩
  have := rd_set (s := true) (fs := []) h (.done false {})
  rw [List.append_nil] at this
  exact this

theorem means_chr {M : List (List Nat × Re)} (c : Nat) (hc : c ∉ metaChars) : Means E M {} [c] (cset c) :=
  atom_means (.plain _ _ _ hc (by simp)) (isSet_chr c)

theorem means_close {M : List (List Nat × Re)} : Means E M {} (chars "\\]") (cset 93) :=
  atom_means (.esc false true [93] 93 [] (.self 93 [] (by decide) (by decide) (by decide))) (isSet_chr 93)

theorem means_ws {M : List (List Nat × Re)} : Means E M {} (chars "[ \t\r\n]+") (Form.re .ws) := by
  refine ⟨[.chars wsSet, .rep 1 none false], ?_, .alt1 _ _ (.seq1 _ _ (.rep [.chars wsSet] _ 1 none false (.set _ _ (.chars _))))⟩
  have h : chars "[ \t\r\n]+" = 91 :: [32, 9, 13, 10, 93] ++ [43] := by decide
  rw [h]
  exact rd_set set_ws (.rep _ _ _ [43] 1 none [] _ (by decide) (by decide) (.done _ _))

theorem means_mac {M : List (List Nat × Re)} {name w : List Nat} {r : Re} (hw : w = 123 :: name ++ [125]) (h : find name M = some r) (hn : MacroName name) :
    Means E M {} w r := by
  subst hw
  exact ⟨[.mac name], .mac _ _ _ name [] _ hn (.done _ _), .alt1 _ _ (.seq1 _ _ (.item _ _ (.mac _ _ h)))⟩


/-! ### The program -/

def calls : List Call :=
 [.insertMacro (chars "STRING") (chars "[\"]([ -\\x10ffff]{-}[\"\\\\]|\\\\([\"\\\\/bfnrt]|u[0-9a-fA-F]{4}))*[\"]"),
  .insertMacro (chars "NUMBER") (chars "-?(0|[1-9]\\d*)([.]\\d+)?([eE][-+]?\\d+)?"),
  .insertMacro (chars "BOOL") (chars "true|false"),
  .insertMacro (chars "NULL") (chars "null"),
  .pushState (chars "END"), .pushState (chars "OBJECT"), .pushState (chars "NAME"), .pushState (chars "COLON"), .pushState (chars "OB_VALUE"),
  .pushState (chars "OB_COMMA"), .pushState (chars "ARRAY"), .pushState (chars "ARR_COMMA"), .pushState (chars "ARR_VALUE"),
  .pushIn (chars "INITIAL") (chars "[{]") (some 4) (chars ">OBJECT:END") 65535,
  .pushIn (chars "INITIAL") (chars "[[]") (some 7) (chars ">ARRAY:END") 65535,
  .pushIn (chars "OBJECT,OB_COMMA") (chars "[}]") (some 6) (chars "<") 65535,
  .pushIn (chars "OBJECT,NAME") (chars "{STRING}") (some 5) (chars "COLON") 65535,
  .pushIn (chars "COLON") (chars ":") (some 65534) (chars "OB_VALUE") 65535,
  .pushIn (chars "OB_VALUE") (chars "{STRING}") (some 1) (chars "OB_COMMA") 65535,
  .pushIn (chars "OB_VALUE") (chars "{NUMBER}") (some 2) (chars "OB_COMMA") 65535,
  .pushIn (chars "OB_VALUE") (chars "{BOOL}") (some 3) (chars "OB_COMMA") 65535,
  .pushIn (chars "OB_VALUE") (chars "{NULL}") (some 9) (chars "OB_COMMA") 65535,
  .pushIn (chars "OB_VALUE") (chars "[{]") (some 4) (chars ">OBJECT:OB_COMMA") 65535,
  .pushIn (chars "OB_VALUE") (chars "[[]") (some 7) (chars ">ARRAY:OB_COMMA") 65535,
  .pushIn (chars "OB_COMMA") (chars ",") (some 65534) (chars "NAME") 65535,
  .pushIn (chars "ARRAY,ARR_COMMA") (chars "\\]") (some 8) (chars "<") 65535,
  .pushIn (chars "ARRAY,ARR_VALUE") (chars "{STRING}") (some 1) (chars "ARR_COMMA") 65535,
  .pushIn (chars "ARRAY,ARR_VALUE") (chars "{NUMBER}") (some 2) (chars "ARR_COMMA") 65535,
  .pushIn (chars "ARRAY,ARR_VALUE") (chars "{BOOL}") (some 3) (chars "ARR_COMMA") 65535,
  .pushIn (chars "ARRAY,ARR_VALUE") (chars "{NULL}") (some 9) (chars "ARR_COMMA") 65535,
  .pushIn (chars "ARRAY,ARR_VALUE") (chars "[{]") (some 4) (chars ">OBJECT:ARR_COMMA") 65535,
  .pushIn (chars "ARRAY,ARR_VALUE") (chars "[[]") (some 7) (chars ">ARRAY:ARR_COMMA") 65535,
  .pushIn (chars "ARR_COMMA") (chars ",") (some 65534) (chars "ARR_VALUE") 65535,
  .pushIn (chars "*") (chars "[ \t\r\n]+") (some 65534) (chars ".") 65535]

def names : List (List Nat) := [chars "INITIAL", chars "END", chars "OBJECT", chars "NAME", chars "COLON", chars "OB_VALUE", chars "OB_COMMA", chars "ARRAY", chars "ARR_COMMA", chars "ARR_VALUE"]

def macros : List (List Nat × Re) :=
  [(chars "NULL", nullRe), (chars "BOOL", Form.re .bool), (chars "NUMBER", numRe), (chars "STRING", strRe)]

theorem program_macros : StateProgram E Ex.tr24.npos {} (calls.take 4) [chars "INITIAL"] macros [[]] :=
  .mac (calls.take 3) _ (macros.drop 1) _ (chars "NULL") (chars "null") nullRe
    (.mac (calls.take 2) _ (macros.drop 2) _ (chars "BOOL") _ (Form.re .bool)
      (.mac (calls.take 1) _ (macros.drop 3) _ (chars "NUMBER") _ numRe
        (.mac [] _ [] _ (chars "STRING") _ strRe .nil (by decide) rfl (by unfold TextOk; decide) means_str rfl rfl)
        (by decide) (by decide) (by unfold TextOk; decide) means_num rfl rfl)
      (by decide) (by decide) (by unfold TextOk; decide) means_bool rfl rfl)
    (by decide) (by decide) (by unfold TextOk; decide) means_null rfl rfl

theorem program5 : StateProgram E Ex.tr24.npos {} (calls.take 5) (names.take 2) macros (List.replicate 2 []) :=
  .state (calls.take 4) (names.take 1) _ _ _ program_macros (by decide) (by decide) (by decide)

theorem program6 : StateProgram E Ex.tr24.npos {} (calls.take 6) (names.take 3) macros (List.replicate 3 []) :=
  .state (calls.take 5) (names.take 2) _ _ _ program5 (by decide) (by decide) (by decide)

theorem program7 : StateProgram E Ex.tr24.npos {} (calls.take 7) (names.take 4) macros (List.replicate 4 []) :=
  .state (calls.take 6) (names.take 3) _ _ _ program6 (by decide) (by decide) (by decide)

theorem program8 : StateProgram E Ex.tr24.npos {} (calls.take 8) (names.take 5) macros (List.replicate 5 []) :=
  .state (calls.take 7) (names.take 4) _ _ _ program7 (by decide) (by decide) (by decide)

theorem program9 : StateProgram E Ex.tr24.npos {} (calls.take 9) (names.take 6) macros (List.replicate 6 []) :=
  .state (calls.take 8) (names.take 5) _ _ _ program8 (by decide) (by decide) (by decide)

theorem program10 : StateProgram E Ex.tr24.npos {} (calls.take 10) (names.take 7) macros (List.replicate 7 []) :=
  .state (calls.take 9) (names.take 6) _ _ _ program9 (by decide) (by decide) (by decide)

theorem program11 : StateProgram E Ex.tr24.npos {} (calls.take 11) (names.take 8) macros (List.replicate 8 []) :=
  .state (calls.take 10) (names.take 7) _ _ _ program10 (by decide) (by decide) (by decide)

theorem program12 : StateProgram E Ex.tr24.npos {} (calls.take 12) (names.take 9) macros (List.replicate 9 []) :=
  .state (calls.take 11) (names.take 8) _ _ _ program11 (by decide) (by decide) (by decide)

theorem program13 : StateProgram E Ex.tr24.npos {} (calls.take 13) (names.take 10) macros (List.replicate 10 []) :=
  .state (calls.take 12) (names.take 9) _ _ _ program12 (by decide) (by decide) (by decide)

theorem program14 : StateProgram E Ex.tr24.npos {} (calls.take 14) names macros
    (([[⟨.ch 123, 4, 2, 1, false⟩], [], [], [], [], [], [], [], [], []] : List (List Entry)).map (·.map Entry.rule)) :=
  .ruleIn (calls.take 13) _ _ _ (chars "INITIAL") [0] _ (Form.re (.ch 123)) (some 4) _ _ _ program13 (.list _ _ (.one _ 0 rfl)) (by unfold TextOk; decide)
    (means_set (one_set (c := 123) (by decide) (by decide))) rfl (by decide) (by decide) (.pushTo (chars "OBJECT") (chars "END") 2 1 rfl rfl)

theorem program15 : StateProgram E Ex.tr24.npos {} (calls.take 15) names macros
    (([[⟨.ch 123, 4, 2, 1, false⟩, ⟨.ch 91, 7, 7, 1, false⟩], [], [], [], [], [], [], [], [], []] : List (List Entry)).map (·.map Entry.rule)) :=
  .ruleIn (calls.take 14) _ _ _ (chars "INITIAL") [0] _ (Form.re (.ch 91)) (some 7) _ _ _ program14 (.list _ _ (.one _ 0 rfl)) (by unfold TextOk; decide)
    (means_set (one_set (c := 91) (by decide) (by decide))) rfl (by decide) (by decide) (.pushTo (chars "ARRAY") (chars "END") 7 1 rfl rfl)

theorem program16 : StateProgram E Ex.tr24.npos {} (calls.take 16) names macros
    (([[⟨.ch 123, 4, 2, 1, false⟩, ⟨.ch 91, 7, 7, 1, false⟩], [], [⟨.ch 125, 6, 65535, 65535, true⟩], [], [], [], [⟨.ch 125, 6, 65535, 65535, true⟩], [], [], []] : List (List Entry)).map (·.map Entry.rule)) :=
  .ruleIn (calls.take 15) _ _ _ (chars "OBJECT,OB_COMMA") [2, 6] _ (Form.re (.ch 125)) (some 6) _ _ _ program15 (.list _ _ (.more (chars "OBJECT") 2 (chars "OB_COMMA") [6] rfl (.one _ 6 rfl))) (by unfold TextOk; decide)
    (means_set (one_set (c := 125) (by decide) (by decide))) rfl (by decide) (by decide) .pop

theorem program17 : StateProgram E Ex.tr24.npos {} (calls.take 17) names macros
    (([[⟨.ch 123, 4, 2, 1, false⟩, ⟨.ch 91, 7, 7, 1, false⟩], [], [⟨.ch 125, 6, 65535, 65535, true⟩, ⟨.str, 5, 4, 65535, false⟩], [⟨.str, 5, 4, 65535, false⟩], [], [], [⟨.ch 125, 6, 65535, 65535, true⟩], [], [], []] : List (List Entry)).map (·.map Entry.rule)) :=
  .ruleIn (calls.take 16) _ _ _ (chars "OBJECT,NAME") [2, 3] _ (Form.re (.str)) (some 5) _ _ _ program16 (.list _ _ (.more (chars "OBJECT") 2 (chars "NAME") [3] rfl (.one _ 3 rfl))) (by unfold TextOk; decide)
    (means_mac (name := chars "STRING") (by decide) (by rfl) (by unfold MacroName; decide)) rfl (by decide) (by decide) (.goto _ 4 rfl)

theorem program18 : StateProgram E Ex.tr24.npos {} (calls.take 18) names macros
    (([[⟨.ch 123, 4, 2, 1, false⟩, ⟨.ch 91, 7, 7, 1, false⟩], [], [⟨.ch 125, 6, 65535, 65535, true⟩, ⟨.str, 5, 4, 65535, false⟩], [⟨.str, 5, 4, 65535, false⟩], [⟨.ch 58, 65534, 5, 65535, false⟩], [], [⟨.ch 125, 6, 65535, 65535, true⟩], [], [], []] : List (List Entry)).map (·.map Entry.rule)) :=
  .ruleIn (calls.take 17) _ _ _ (chars "COLON") [4] _ (Form.re (.ch 58)) (some 65534) _ _ _ program17 (.list _ _ (.one _ 4 rfl)) (by unfold TextOk; decide)
    (means_chr 58 (by decide)) rfl (by decide) (by decide) (.goto _ 5 rfl)

theorem program19 : StateProgram E Ex.tr24.npos {} (calls.take 19) names macros
    (([[⟨.ch 123, 4, 2, 1, false⟩, ⟨.ch 91, 7, 7, 1, false⟩], [], [⟨.ch 125, 6, 65535, 65535, true⟩, ⟨.str, 5, 4, 65535, false⟩], [⟨.str, 5, 4, 65535, false⟩], [⟨.ch 58, 65534, 5, 65535, false⟩], [⟨.str, 1, 6, 65535, false⟩], [⟨.ch 125, 6, 65535, 65535, true⟩], [], [], []] : List (List Entry)).map (·.map Entry.rule)) :=
  .ruleIn (calls.take 18) _ _ _ (chars "OB_VALUE") [5] _ (Form.re (.str)) (some 1) _ _ _ program18 (.list _ _ (.one _ 5 rfl)) (by unfold TextOk; decide)
    (means_mac (name := chars "STRING") (by decide) (by rfl) (by unfold MacroName; decide)) rfl (by decide) (by decide) (.goto _ 6 rfl)

theorem program20 : StateProgram E Ex.tr24.npos {} (calls.take 20) names macros
    (([[⟨.ch 123, 4, 2, 1, false⟩, ⟨.ch 91, 7, 7, 1, false⟩], [], [⟨.ch 125, 6, 65535, 65535, true⟩, ⟨.str, 5, 4, 65535, false⟩], [⟨.str, 5, 4, 65535, false⟩], [⟨.ch 58, 65534, 5, 65535, false⟩], [⟨.str, 1, 6, 65535, false⟩, ⟨.num, 2, 6, 65535, false⟩], [⟨.ch 125, 6, 65535, 65535, true⟩], [], [], []] : List (List Entry)).map (·.map Entry.rule)) :=
  .ruleIn (calls.take 19) _ _ _ (chars "OB_VALUE") [5] _ (Form.re (.num)) (some 2) _ _ _ program19 (.list _ _ (.one _ 5 rfl)) (by unfold TextOk; decide)
    (means_mac (name := chars "NUMBER") (by decide) (by rfl) (by unfold MacroName; decide)) rfl (by decide) (by decide) (.goto _ 6 rfl)

theorem program21 : StateProgram E Ex.tr24.npos {} (calls.take 21) names macros
    (([[⟨.ch 123, 4, 2, 1, false⟩, ⟨.ch 91, 7, 7, 1, false⟩], [], [⟨.ch 125, 6, 65535, 65535, true⟩, ⟨.str, 5, 4, 65535, false⟩], [⟨.str, 5, 4, 65535, false⟩], [⟨.ch 58, 65534, 5, 65535, false⟩], [⟨.str, 1, 6, 65535, false⟩, ⟨.num, 2, 6, 65535, false⟩, ⟨.bool, 3, 6, 65535, false⟩], [⟨.ch 125, 6, 65535, 65535, true⟩], [], [], []] : List (List Entry)).map (·.map Entry.rule)) :=
  .ruleIn (calls.take 20) _ _ _ (chars "OB_VALUE") [5] _ (Form.re (.bool)) (some 3) _ _ _ program20 (.list _ _ (.one _ 5 rfl)) (by unfold TextOk; decide)
    (means_mac (name := chars "BOOL") (by decide) (by rfl) (by unfold MacroName; decide)) rfl (by decide) (by decide) (.goto _ 6 rfl)

theorem program22 : StateProgram E Ex.tr24.npos {} (calls.take 22) names macros
    (([[⟨.ch 123, 4, 2, 1, false⟩, ⟨.ch 91, 7, 7, 1, false⟩], [], [⟨.ch 125, 6, 65535, 65535, true⟩, ⟨.str, 5, 4, 65535, false⟩], [⟨.str, 5, 4, 65535, false⟩], [⟨.ch 58, 65534, 5, 65535, false⟩], [⟨.str, 1, 6, 65535, false⟩, ⟨.num, 2, 6, 65535, false⟩, ⟨.bool, 3, 6, 65535, false⟩, ⟨.null, 9, 6, 65535, false⟩], [⟨.ch 125, 6, 65535, 65535, true⟩], [], [], []] : List (List Entry)).map (·.map Entry.rule)) :=
  .ruleIn (calls.take 21) _ _ _ (chars "OB_VALUE") [5] _ (Form.re (.null)) (some 9) _ _ _ program21 (.list _ _ (.one _ 5 rfl)) (by unfold TextOk; decide)
    (means_mac (name := chars "NULL") (by decide) (by rfl) (by unfold MacroName; decide)) rfl (by decide) (by decide) (.goto _ 6 rfl)

theorem program23 : StateProgram E Ex.tr24.npos {} (calls.take 23) names macros
    (([[⟨.ch 123, 4, 2, 1, false⟩, ⟨.ch 91, 7, 7, 1, false⟩], [], [⟨.ch 125, 6, 65535, 65535, true⟩, ⟨.str, 5, 4, 65535, false⟩], [⟨.str, 5, 4, 65535, false⟩], [⟨.ch 58, 65534, 5, 65535, false⟩], [⟨.str, 1, 6, 65535, false⟩, ⟨.num, 2, 6, 65535, false⟩, ⟨.bool, 3, 6, 65535, false⟩, ⟨.null, 9, 6, 65535, false⟩, ⟨.ch 123, 4, 2, 6, false⟩], [⟨.ch 125, 6, 65535, 65535, true⟩], [], [], []] : List (List Entry)).map (·.map Entry.rule)) :=
  .ruleIn (calls.take 22) _ _ _ (chars "OB_VALUE") [5] _ (Form.re (.ch 123)) (some 4) _ _ _ program22 (.list _ _ (.one _ 5 rfl)) (by unfold TextOk; decide)
    (means_set (one_set (c := 123) (by decide) (by decide))) rfl (by decide) (by decide) (.pushTo (chars "OBJECT") (chars "OB_COMMA") 2 6 rfl rfl)

theorem program24 : StateProgram E Ex.tr24.npos {} (calls.take 24) names macros
    (([[⟨.ch 123, 4, 2, 1, false⟩, ⟨.ch 91, 7, 7, 1, false⟩], [], [⟨.ch 125, 6, 65535, 65535, true⟩, ⟨.str, 5, 4, 65535, false⟩], [⟨.str, 5, 4, 65535, false⟩], [⟨.ch 58, 65534, 5, 65535, false⟩], [⟨.str, 1, 6, 65535, false⟩, ⟨.num, 2, 6, 65535, false⟩, ⟨.bool, 3, 6, 65535, false⟩, ⟨.null, 9, 6, 65535, false⟩, ⟨.ch 123, 4, 2, 6, false⟩, ⟨.ch 91, 7, 7, 6, false⟩], [⟨.ch 125, 6, 65535, 65535, true⟩], [], [], []] : List (List Entry)).map (·.map Entry.rule)) :=
  .ruleIn (calls.take 23) _ _ _ (chars "OB_VALUE") [5] _ (Form.re (.ch 91)) (some 7) _ _ _ program23 (.list _ _ (.one _ 5 rfl)) (by unfold TextOk; decide)
    (means_set (one_set (c := 91) (by decide) (by decide))) rfl (by decide) (by decide) (.pushTo (chars "ARRAY") (chars "OB_COMMA") 7 6 rfl rfl)

theorem program25 : StateProgram E Ex.tr24.npos {} (calls.take 25) names macros
    (([[⟨.ch 123, 4, 2, 1, false⟩, ⟨.ch 91, 7, 7, 1, false⟩], [], [⟨.ch 125, 6, 65535, 65535, true⟩, ⟨.str, 5, 4, 65535, false⟩], [⟨.str, 5, 4, 65535, false⟩], [⟨.ch 58, 65534, 5, 65535, false⟩], [⟨.str, 1, 6, 65535, false⟩, ⟨.num, 2, 6, 65535, false⟩, ⟨.bool, 3, 6, 65535, false⟩, ⟨.null, 9, 6, 65535, false⟩, ⟨.ch 123, 4, 2, 6, false⟩, ⟨.ch 91, 7, 7, 6, false⟩], [⟨.ch 125, 6, 65535, 65535, true⟩, ⟨.ch 44, 65534, 3, 65535, false⟩], [], [], []] : List (List Entry)).map (·.map Entry.rule)) :=
  .ruleIn (calls.take 24) _ _ _ (chars "OB_COMMA") [6] _ (Form.re (.ch 44)) (some 65534) _ _ _ program24 (.list _ _ (.one _ 6 rfl)) (by unfold TextOk; decide)
    (means_chr 44 (by decide)) rfl (by decide) (by decide) (.goto _ 3 rfl)

theorem program26 : StateProgram E Ex.tr24.npos {} (calls.take 26) names macros
    (([[⟨.ch 123, 4, 2, 1, false⟩, ⟨.ch 91, 7, 7, 1, false⟩], [], [⟨.ch 125, 6, 65535, 65535, true⟩, ⟨.str, 5, 4, 65535, false⟩], [⟨.str, 5, 4, 65535, false⟩], [⟨.ch 58, 65534, 5, 65535, false⟩], [⟨.str, 1, 6, 65535, false⟩, ⟨.num, 2, 6, 65535, false⟩, ⟨.bool, 3, 6, 65535, false⟩, ⟨.null, 9, 6, 65535, false⟩, ⟨.ch 123, 4, 2, 6, false⟩, ⟨.ch 91, 7, 7, 6, false⟩], [⟨.ch 125, 6, 65535, 65535, true⟩, ⟨.ch 44, 65534, 3, 65535, false⟩], [⟨.ch 93, 8, 65535, 65535, true⟩], [⟨.ch 93, 8, 65535, 65535, true⟩], []] : List (List Entry)).map (·.map Entry.rule)) :=
  .ruleIn (calls.take 25) _ _ _ (chars "ARRAY,ARR_COMMA") [7, 8] _ (Form.re (.ch 93)) (some 8) _ _ _ program25 (.list _ _ (.more (chars "ARRAY") 7 (chars "ARR_COMMA") [8] rfl (.one _ 8 rfl))) (by unfold TextOk; decide)
    means_close rfl (by decide) (by decide) .pop

theorem program27 : StateProgram E Ex.tr24.npos {} (calls.take 27) names macros
    (([[⟨.ch 123, 4, 2, 1, false⟩, ⟨.ch 91, 7, 7, 1, false⟩], [], [⟨.ch 125, 6, 65535, 65535, true⟩, ⟨.str, 5, 4, 65535, false⟩], [⟨.str, 5, 4, 65535, false⟩], [⟨.ch 58, 65534, 5, 65535, false⟩], [⟨.str, 1, 6, 65535, false⟩, ⟨.num, 2, 6, 65535, false⟩, ⟨.bool, 3, 6, 65535, false⟩, ⟨.null, 9, 6, 65535, false⟩, ⟨.ch 123, 4, 2, 6, false⟩, ⟨.ch 91, 7, 7, 6, false⟩], [⟨.ch 125, 6, 65535, 65535, true⟩, ⟨.ch 44, 65534, 3, 65535, false⟩], [⟨.ch 93, 8, 65535, 65535, true⟩, ⟨.str, 1, 8, 65535, false⟩], [⟨.ch 93, 8, 65535, 65535, true⟩], [⟨.str, 1, 8, 65535, false⟩]] : List (List Entry)).map (·.map Entry.rule)) :=
  .ruleIn (calls.take 26) _ _ _ (chars "ARRAY,ARR_VALUE") [7, 9] _ (Form.re (.str)) (some 1) _ _ _ program26 (.list _ _ (.more (chars "ARRAY") 7 (chars "ARR_VALUE") [9] rfl (.one _ 9 rfl))) (by unfold TextOk; decide)
    (means_mac (name := chars "STRING") (by decide) (by rfl) (by unfold MacroName; decide)) rfl (by decide) (by decide) (.goto _ 8 rfl)

theorem program28 : StateProgram E Ex.tr24.npos {} (calls.take 28) names macros
    (([[⟨.ch 123, 4, 2, 1, false⟩, ⟨.ch 91, 7, 7, 1, false⟩], [], [⟨.ch 125, 6, 65535, 65535, true⟩, ⟨.str, 5, 4, 65535, false⟩], [⟨.str, 5, 4, 65535, false⟩], [⟨.ch 58, 65534, 5, 65535, false⟩], [⟨.str, 1, 6, 65535, false⟩, ⟨.num, 2, 6, 65535, false⟩, ⟨.bool, 3, 6, 65535, false⟩, ⟨.null, 9, 6, 65535, false⟩, ⟨.ch 123, 4, 2, 6, false⟩, ⟨.ch 91, 7, 7, 6, false⟩], [⟨.ch 125, 6, 65535, 65535, true⟩, ⟨.ch 44, 65534, 3, 65535, false⟩], [⟨.ch 93, 8, 65535, 65535, true⟩, ⟨.str, 1, 8, 65535, false⟩, ⟨.num, 2, 8, 65535, false⟩], [⟨.ch 93, 8, 65535, 65535, true⟩], [⟨.str, 1, 8, 65535, false⟩, ⟨.num, 2, 8, 65535, false⟩]] : List (List Entry)).map (·.map Entry.rule)) :=
  .ruleIn (calls.take 27) _ _ _ (chars "ARRAY,ARR_VALUE") [7, 9] _ (Form.re (.num)) (some 2) _ _ _ program27 (.list _ _ (.more (chars "ARRAY") 7 (chars "ARR_VALUE") [9] rfl (.one _ 9 rfl))) (by unfold TextOk; decide)
    (means_mac (name := chars "NUMBER") (by decide) (by rfl) (by unfold MacroName; decide)) rfl (by decide) (by decide) (.goto _ 8 rfl)

theorem program29 : StateProgram E Ex.tr24.npos {} (calls.take 29) names macros
    (([[⟨.ch 123, 4, 2, 1, false⟩, ⟨.ch 91, 7, 7, 1, false⟩], [], [⟨.ch 125, 6, 65535, 65535, true⟩, ⟨.str, 5, 4, 65535, false⟩], [⟨.str, 5, 4, 65535, false⟩], [⟨.ch 58, 65534, 5, 65535, false⟩], [⟨.str, 1, 6, 65535, false⟩, ⟨.num, 2, 6, 65535, false⟩, ⟨.bool, 3, 6, 65535, false⟩, ⟨.null, 9, 6, 65535, false⟩, ⟨.ch 123, 4, 2, 6, false⟩, ⟨.ch 91, 7, 7, 6, false⟩], [⟨.ch 125, 6, 65535, 65535, true⟩, ⟨.ch 44, 65534, 3, 65535, false⟩], [⟨.ch 93, 8, 65535, 65535, true⟩, ⟨.str, 1, 8, 65535, false⟩, ⟨.num, 2, 8, 65535, false⟩, ⟨.bool, 3, 8, 65535, false⟩], [⟨.ch 93, 8, 65535, 65535, true⟩], [⟨.str, 1, 8, 65535, false⟩, ⟨.num, 2, 8, 65535, false⟩, ⟨.bool, 3, 8, 65535, false⟩]] : List (List Entry)).map (·.map Entry.rule)) :=
  .ruleIn (calls.take 28) _ _ _ (chars "ARRAY,ARR_VALUE") [7, 9] _ (Form.re (.bool)) (some 3) _ _ _ program28 (.list _ _ (.more (chars "ARRAY") 7 (chars "ARR_VALUE") [9] rfl (.one _ 9 rfl))) (by unfold TextOk; decide)
    (means_mac (name := chars "BOOL") (by decide) (by rfl) (by unfold MacroName; decide)) rfl (by decide) (by decide) (.goto _ 8 rfl)

theorem program30 : StateProgram E Ex.tr24.npos {} (calls.take 30) names macros
    (([[⟨.ch 123, 4, 2, 1, false⟩, ⟨.ch 91, 7, 7, 1, false⟩], [], [⟨.ch 125, 6, 65535, 65535, true⟩, ⟨.str, 5, 4, 65535, false⟩], [⟨.str, 5, 4, 65535, false⟩], [⟨.ch 58, 65534, 5, 65535, false⟩], [⟨.str, 1, 6, 65535, false⟩, ⟨.num, 2, 6, 65535, false⟩, ⟨.bool, 3, 6, 65535, false⟩, ⟨.null, 9, 6, 65535, false⟩, ⟨.ch 123, 4, 2, 6, false⟩, ⟨.ch 91, 7, 7, 6, false⟩], [⟨.ch 125, 6, 65535, 65535, true⟩, ⟨.ch 44, 65534, 3, 65535, false⟩], [⟨.ch 93, 8, 65535, 65535, true⟩, ⟨.str, 1, 8, 65535, false⟩, ⟨.num, 2, 8, 65535, false⟩, ⟨.bool, 3, 8, 65535, false⟩, ⟨.null, 9, 8, 65535, false⟩], [⟨.ch 93, 8, 65535, 65535, true⟩], [⟨.str, 1, 8, 65535, false⟩, ⟨.num, 2, 8, 65535, false⟩, ⟨.bool, 3, 8, 65535, false⟩, ⟨.null, 9, 8, 65535, false⟩]] : List (List Entry)).map (·.map Entry.rule)) :=
  .ruleIn (calls.take 29) _ _ _ (chars "ARRAY,ARR_VALUE") [7, 9] _ (Form.re (.null)) (some 9) _ _ _ program29 (.list _ _ (.more (chars "ARRAY") 7 (chars "ARR_VALUE") [9] rfl (.one _ 9 rfl))) (by unfold TextOk; decide)
    (means_mac (name := chars "NULL") (by decide) (by rfl) (by unfold MacroName; decide)) rfl (by decide) (by decide) (.goto _ 8 rfl)

theorem program31 : StateProgram E Ex.tr24.npos {} (calls.take 31) names macros
    (([[⟨.ch 123, 4, 2, 1, false⟩, ⟨.ch 91, 7, 7, 1, false⟩], [], [⟨.ch 125, 6, 65535, 65535, true⟩, ⟨.str, 5, 4, 65535, false⟩], [⟨.str, 5, 4, 65535, false⟩], [⟨.ch 58, 65534, 5, 65535, false⟩], [⟨.str, 1, 6, 65535, false⟩, ⟨.num, 2, 6, 65535, false⟩, ⟨.bool, 3, 6, 65535, false⟩, ⟨.null, 9, 6, 65535, false⟩, ⟨.ch 123, 4, 2, 6, false⟩, ⟨.ch 91, 7, 7, 6, false⟩], [⟨.ch 125, 6, 65535, 65535, true⟩, ⟨.ch 44, 65534, 3, 65535, false⟩], [⟨.ch 93, 8, 65535, 65535, true⟩, ⟨.str, 1, 8, 65535, false⟩, ⟨.num, 2, 8, 65535, false⟩, ⟨.bool, 3, 8, 65535, false⟩, ⟨.null, 9, 8, 65535, false⟩, ⟨.ch 123, 4, 2, 8, false⟩], [⟨.ch 93, 8, 65535, 65535, true⟩], [⟨.str, 1, 8, 65535, false⟩, ⟨.num, 2, 8, 65535, false⟩, ⟨.bool, 3, 8, 65535, false⟩, ⟨.null, 9, 8, 65535, false⟩, ⟨.ch 123, 4, 2, 8, false⟩]] : List (List Entry)).map (·.map Entry.rule)) :=
  .ruleIn (calls.take 30) _ _ _ (chars "ARRAY,ARR_VALUE") [7, 9] _ (Form.re (.ch 123)) (some 4) _ _ _ program30 (.list _ _ (.more (chars "ARRAY") 7 (chars "ARR_VALUE") [9] rfl (.one _ 9 rfl))) (by unfold TextOk; decide)
    (means_set (one_set (c := 123) (by decide) (by decide))) rfl (by decide) (by decide) (.pushTo (chars "OBJECT") (chars "ARR_COMMA") 2 8 rfl rfl)

theorem program32 : StateProgram E Ex.tr24.npos {} (calls.take 32) names macros
    (([[⟨.ch 123, 4, 2, 1, false⟩, ⟨.ch 91, 7, 7, 1, false⟩], [], [⟨.ch 125, 6, 65535, 65535, true⟩, ⟨.str, 5, 4, 65535, false⟩], [⟨.str, 5, 4, 65535, false⟩], [⟨.ch 58, 65534, 5, 65535, false⟩], [⟨.str, 1, 6, 65535, false⟩, ⟨.num, 2, 6, 65535, false⟩, ⟨.bool, 3, 6, 65535, false⟩, ⟨.null, 9, 6, 65535, false⟩, ⟨.ch 123, 4, 2, 6, false⟩, ⟨.ch 91, 7, 7, 6, false⟩], [⟨.ch 125, 6, 65535, 65535, true⟩, ⟨.ch 44, 65534, 3, 65535, false⟩], [⟨.ch 93, 8, 65535, 65535, true⟩, ⟨.str, 1, 8, 65535, false⟩, ⟨.num, 2, 8, 65535, false⟩, ⟨.bool, 3, 8, 65535, false⟩, ⟨.null, 9, 8, 65535, false⟩, ⟨.ch 123, 4, 2, 8, false⟩, ⟨.ch 91, 7, 7, 8, false⟩], [⟨.ch 93, 8, 65535, 65535, true⟩], [⟨.str, 1, 8, 65535, false⟩, ⟨.num, 2, 8, 65535, false⟩, ⟨.bool, 3, 8, 65535, false⟩, ⟨.null, 9, 8, 65535, false⟩, ⟨.ch 123, 4, 2, 8, false⟩, ⟨.ch 91, 7, 7, 8, false⟩]] : List (List Entry)).map (·.map Entry.rule)) :=
  .ruleIn (calls.take 31) _ _ _ (chars "ARRAY,ARR_VALUE") [7, 9] _ (Form.re (.ch 91)) (some 7) _ _ _ program31 (.list _ _ (.more (chars "ARRAY") 7 (chars "ARR_VALUE") [9] rfl (.one _ 9 rfl))) (by unfold TextOk; decide)
    (means_set (one_set (c := 91) (by decide) (by decide))) rfl (by decide) (by decide) (.pushTo (chars "ARRAY") (chars "ARR_COMMA") 7 8 rfl rfl)

theorem program33 : StateProgram E Ex.tr24.npos {} (calls.take 33) names macros
    (([[⟨.ch 123, 4, 2, 1, false⟩, ⟨.ch 91, 7, 7, 1, false⟩], [], [⟨.ch 125, 6, 65535, 65535, true⟩, ⟨.str, 5, 4, 65535, false⟩], [⟨.str, 5, 4, 65535, false⟩], [⟨.ch 58, 65534, 5, 65535, false⟩], [⟨.str, 1, 6, 65535, false⟩, ⟨.num, 2, 6, 65535, false⟩, ⟨.bool, 3, 6, 65535, false⟩, ⟨.null, 9, 6, 65535, false⟩, ⟨.ch 123, 4, 2, 6, false⟩, ⟨.ch 91, 7, 7, 6, false⟩], [⟨.ch 125, 6, 65535, 65535, true⟩, ⟨.ch 44, 65534, 3, 65535, false⟩], [⟨.ch 93, 8, 65535, 65535, true⟩, ⟨.str, 1, 8, 65535, false⟩, ⟨.num, 2, 8, 65535, false⟩, ⟨.bool, 3, 8, 65535, false⟩, ⟨.null, 9, 8, 65535, false⟩, ⟨.ch 123, 4, 2, 8, false⟩, ⟨.ch 91, 7, 7, 8, false⟩], [⟨.ch 93, 8, 65535, 65535, true⟩, ⟨.ch 44, 65534, 9, 65535, false⟩], [⟨.str, 1, 8, 65535, false⟩, ⟨.num, 2, 8, 65535, false⟩, ⟨.bool, 3, 8, 65535, false⟩, ⟨.null, 9, 8, 65535, false⟩, ⟨.ch 123, 4, 2, 8, false⟩, ⟨.ch 91, 7, 7, 8, false⟩]] : List (List Entry)).map (·.map Entry.rule)) :=
  .ruleIn (calls.take 32) _ _ _ (chars "ARR_COMMA") [8] _ (Form.re (.ch 44)) (some 65534) _ _ _ program32 (.list _ _ (.one _ 8 rfl)) (by unfold TextOk; decide)
    (means_chr 44 (by decide)) rfl (by decide) (by decide) (.goto _ 9 rfl)

theorem program34 : StateProgram E Ex.tr24.npos {} (calls.take 34) names macros
    (([[⟨.ch 123, 4, 2, 1, false⟩, ⟨.ch 91, 7, 7, 1, false⟩, ⟨.ws, 65534, 0, 65535, false⟩], [⟨.ws, 65534, 1, 65535, false⟩], [⟨.ch 125, 6, 65535, 65535, true⟩, ⟨.str, 5, 4, 65535, false⟩, ⟨.ws, 65534, 2, 65535, false⟩], [⟨.str, 5, 4, 65535, false⟩, ⟨.ws, 65534, 3, 65535, false⟩], [⟨.ch 58, 65534, 5, 65535, false⟩, ⟨.ws, 65534, 4, 65535, false⟩], [⟨.str, 1, 6, 65535, false⟩, ⟨.num, 2, 6, 65535, false⟩, ⟨.bool, 3, 6, 65535, false⟩, ⟨.null, 9, 6, 65535, false⟩, ⟨.ch 123, 4, 2, 6, false⟩, ⟨.ch 91, 7, 7, 6, false⟩, ⟨.ws, 65534, 5, 65535, false⟩], [⟨.ch 125, 6, 65535, 65535, true⟩, ⟨.ch 44, 65534, 3, 65535, false⟩, ⟨.ws, 65534, 6, 65535, false⟩], [⟨.ch 93, 8, 65535, 65535, true⟩, ⟨.str, 1, 8, 65535, false⟩, ⟨.num, 2, 8, 65535, false⟩, ⟨.bool, 3, 8, 65535, false⟩, ⟨.null, 9, 8, 65535, false⟩, ⟨.ch 123, 4, 2, 8, false⟩, ⟨.ch 91, 7, 7, 8, false⟩, ⟨.ws, 65534, 7, 65535, false⟩], [⟨.ch 93, 8, 65535, 65535, true⟩, ⟨.ch 44, 65534, 9, 65535, false⟩, ⟨.ws, 65534, 8, 65535, false⟩], [⟨.str, 1, 8, 65535, false⟩, ⟨.num, 2, 8, 65535, false⟩, ⟨.bool, 3, 8, 65535, false⟩, ⟨.null, 9, 8, 65535, false⟩, ⟨.ch 123, 4, 2, 8, false⟩, ⟨.ch 91, 7, 7, 8, false⟩, ⟨.ws, 65534, 9, 65535, false⟩]] : List (List Entry)).map (·.map Entry.rule)) :=
  .ruleIn (calls.take 33) _ _ _ (chars "*") [0, 1, 2, 3, 4, 5, 6, 7, 8, 9] _ (Form.re (.ws)) (some 65534) _ _ _ program33 .all (by unfold TextOk; decide)
    means_ws rfl (by decide) (by decide) .stay

theorem program : StateProgram E Ex.tr24.npos {} calls names macros xss := program34

end Lexertl.Json

import Verif.Props.Lexing
import Verif.Props.Build
import Verif.Spec.Wide

/-
Property C33: charsets of 16 bit characters and of code points, cut into sequences of
byte charsets, and lexers over such characters.  (C01, C02, C34, C43, C17-C19, C45 hold
for machines of all character widths.)
-/
namespace Lexertl.Props
open Spec

theorem inRow_iff : ∀ (row : List Token) (bs : List Nat), Slice.RowHas row bs ↔ InRow row bs
  | [], [] => Iff.rfl
  | [], _ :: _ => Iff.rfl
  | _ :: _, [] => Iff.rfl
  | _ :: ts, _ :: bs => and_congr_right fun _ => inRow_iff ts bs

theorem inRows_iff (rows : Slices) (bs : List Nat) : Slice.Has rows bs ↔ InRows rows bs :=
  exists_congr fun row => and_congr_right fun _ => inRow_iff row bs

/-- C33, 16 bit characters: the rows of byte charsets made for a charset contain exactly
the two byte sequences of its characters. -/
theorem C33_slices_16_bit {t : List (Nat × Nat)} (hn : Normal t) (hne : t ≠ []) (hw : Within 0xffff t) (bs : List Nat) :
    InRows (sliceToken false t) bs ↔ ∃ c, Mem c t ∧ bs = bytes2 c := by
  obtain ⟨_, _, _, h⟩ := Slice.sliceToken_spec false t hn.1 hw hne
  rw [← inRows_iff, h]
  refine exists_congr fun c => and_congr_right fun hc => ?_
  obtain ⟨r, hr, _, h2⟩ := hc
  have : r.2 ≤ 0xffff := hw r hr
  rw [show Slice.width false = 2 from rfl, Slice.charBytes2, show c / 256 % 256 = c / 256 from by omega]
  rfl

/-- `[Ā-中]` and friends: 256 and 20013 are in, 255 is not. -/
example : Normal [(0x100, 0x4e2d)] ∧ InRows (sliceToken false [(0x100, 0x4e2d)]) (bytes2 0x4e2d) ∧
    InRows (sliceToken false [(0x100, 0x4e2d)]) (bytes2 0x100) ∧ ¬ InRows (sliceToken false [(0x100, 0x4e2d)]) (bytes2 0xff) ∧
    ¬ InRows (sliceToken false [(0x100, 0x4e2d)]) (bytes2 0x4e2e) := by decide

theorem c33_bytes3 {c : Nat} (h : c < 0x1000000) : charBytes (Slice.width true) c = bytes3 c := by
  rw [show Slice.width true = 3 from rfl, Slice.charBytes3, show c / 65536 % 256 = c / 65536 from by omega]
  rfl

/-- C33, code points, ranges inside two neighbouring planes: the rows contain exactly the
three byte sequences of the characters. -/
theorem C33_slices_24_bit_two_planes_partial {t : List (Nat × Nat)} (hn : Normal t) (hne : t ≠ []) (hw : Within 0x10ffff t)
    (h2 : ∀ r ∈ t, r.2 / 65536 ≤ r.1 / 65536 + 1) (bs : List Nat) :
    InRows (sliceToken true t) bs ↔ ∃ c, Mem c t ∧ bs = bytes3 c := by
  obtain ⟨_, _, _, h⟩ := Slice.sliceToken_spec true t hn.1 (fun r hr => Nat.le_trans (hw r hr) (by decide)) hne
  have e : Slice.accepted true t = t := accepts_two (tr := ⟨0, true, true⟩) fun _ _ => h2
  rw [← inRows_iff, h, e]
  refine exists_congr fun c => and_congr_right fun hc => ?_
  obtain ⟨r, hr, _, h2⟩ := hc
  have : r.2 ≤ 0x10ffff := hw r hr
  rw [c33_bytes3 (by omega)]

/-- C33, code points, ranges inside two neighbouring planes or from below 256 to the last
code point (as made by `.` and by negated charsets): a code point's bytes are in the rows
exactly if it is in the charset. -/
theorem C33_slices_24_bit_partial {t : List (Nat × Nat)} (hn : Normal t) (hne : t ≠ []) (hw : Within 0x10ffff t)
    (hf : ∀ r ∈ t, FewPlanes r) {c : Nat} (hc : c < 0x110000) :
    InRows (sliceToken true t) (bytes3 c) ↔ Mem c t := by
  have ht : Wide.SetOk ⟨0, true, true⟩ t := ⟨hn, hne, hw, fun _ _ => hf⟩
  have htop : Within 16777215 (Slice.accepted true t) := Wide.accepts_top ht
  obtain ⟨_, _, _, h⟩ := Slice.sliceToken_spec true t hn.1 (fun r hr => Nat.le_trans (hw r hr) (by decide)) hne
  rw [← inRows_iff, h, ← Wide.accepts_mem ht (by exact hc)]
  constructor
  · rintro ⟨d, ⟨x, hx, h1, h2⟩, h3⟩
    have : x.2 ≤ 16777215 := htop x hx
    rw [c33_bytes3 (by omega)] at h3
    simp only [bytes3, List.cons.injEq, and_true] at h3
    rw [show c = d by omega]
    exact ⟨x, hx, h1, h2⟩
  · intro hm
    exact ⟨c, hm, (c33_bytes3 (by omega)).symm⟩

/-- `.`: every code point but the newline. -/
example : Normal [(0, 9), (11, 0x10ffff)] ∧ (∀ r ∈ [(0, 9), (11, 0x10ffff)], FewPlanes r) ∧
    InRows (sliceToken true [(0, 9), (11, 0x10ffff)]) (bytes3 0x1f600) ∧
    ¬ InRows (sliceToken true [(0, 9), (11, 0x10ffff)]) (bytes3 10) := by decide

/-- C33, what the code does for a range over three or more planes: it takes the part of the
range in its first and in its last plane, and in between not the planes between those two
but the planes between two numbers made of the middle bytes of the ends. -/
theorem C33_three_planes {a b : Nat} (h : a / 65536 + 1 < b / 65536) (hb : b ≤ 0x10ffff) (bs : List Nat) :
    InRows (sliceToken true [(a, b)]) bs ↔ ∃ c, c < 0x1000000 ∧ bs = bytes3 c ∧
      ((c / 65536 = a / 65536 ∧ a ≤ c) ∨ (c / 65536 = b / 65536 ∧ c ≤ b) ∨
        ∃ x y, x = (a / 256 + 1) % 256 ∧ y = (b / 256 + 255) % 256 ∧
          ((x ≤ c / 65536 ∧ c / 65536 ≤ y) ∨ (y ≤ c / 65536 ∧ c / 65536 ≤ x))) := by
  have hr : ∀ r ∈ [(a, b)], r.1 ≤ r.2 := by simp only [List.mem_singleton]; rintro _ rfl; simp only; omega
  obtain ⟨_, _, _, hs⟩ := Slice.sliceToken_spec true [(a, b)] hr (by
    simp only [Within, List.mem_singleton]; rintro _ rfl; show b ≤ 16777215; omega) (by simp)
  have e1 : toByte ((a / 256 % 256 : Nat) + 1) = (a / 256 + 1) % 256 := by unfold toByte; omega
  have e2 : toByte ((b / 256 % 256 : Nat) - 1) = (b / 256 + 255) % 256 := by unfold toByte; omega
  rw [← inRows_iff, hs]
  simp only [Slice.accepted, if_true, List.flatMap_cons, List.flatMap_nil, List.append_nil]
  rw [Slice.widen24, if_neg (by simp only; omega)]
  simp only [e1, e2]
  constructor
  · rintro ⟨c, hc, rfl⟩
    simp only [Mem, List.mem_cons, List.not_mem_nil, or_false, exists_eq_or_imp, exists_eq_left] at hc
    have : c < 0x1000000 := by omega
    exact ⟨c, this, c33_bytes3 this, by
      rcases hc with hc | hc | hc
      · left; omega
      · right; right; exact ⟨_, _, rfl, rfl, by omega⟩
      · right; left; omega⟩
  · rintro ⟨c, h1, rfl, h2⟩
    refine ⟨c, ?_, (c33_bytes3 h1).symm⟩
    simp only [Mem, List.mem_cons, List.not_mem_nil, or_false, exists_eq_or_imp, exists_eq_left]
    rcases h2 with h2 | h2 | ⟨_, _, rfl, rfl, h2⟩
    · left; omega
    · right; right; omega
    · right; left; omega

/-- C33 is wrong for ranges over three or more planes.  `[\x{4e01}-\x{10ffff}]` does not
contain U+10000, and `[\x{ff}-\x{6ff00}]` contains U+80000. -/
theorem C33_three_planes_wrong :
    (Mem 0x10000 [(0x4e01, 0x10ffff)] ∧ ¬ InRows (sliceToken true [(0x4e01, 0x10ffff)]) (bytes3 0x10000)) ∧
    (¬ Mem 0x80000 [(0xff, 0x6ff00)] ∧ InRows (sliceToken true [(0xff, 0x6ff00)]) (bytes3 0x80000)) := by decide

namespace Ex
/-- A lexer over 16 bit characters, and one over code points. -/
def tr16 : Traits := ⟨65535, true, false⟩
def tr24 : Traits := ⟨65535, true, true⟩

/-- One rule: a charset, repeated. -/
def rSet (t : List (Nat × Nat)) (id : Nat) : SRule :=
  (⟨[tBegin, ⟨.charset, [], t⟩, tPlus, tEnd], id, 65535, 0, 65535, false⟩, some (.plus (.chars t) false))

/-- CJK characters as words, a smiley, spaces skipped. -/
def rulesWide (smile : Nat) : List (List SRule) := [[rSet [(0x4e00, 0x9fff)] 1, chr smile 2, chr 32 65534]]
def RWide (smile : Nat) : Rules := ⟨(rulesWide smile).map (·.map (·.1)), [16], 0, false, false⟩

theorem one_set {tr : Traits} {t : List (Nat × Nat)} (id : Nat) (h : CharSets tr (some (.chars t))) : One tr (rSet t id) where
  den := .re tBegin tEnd [⟨.charset, [], t⟩, tPlus] _ rfl rfl (.alt1 _ _ (.seq1 _ _ (.postfix_ [_] _ _ _ (.charset _ _) (.plus _ _ _))))
  sets := h
  noBol := rfl
  noEol := rfl
  greedy := rfl

theorem ruleSet16 : RuleSet tr16 (RWide 0x263a) (rulesWide 0x263a) := by
  refine ruleSet_of rfl ?_ (by decide)
  simp only [rulesWide, List.mem_cons, List.not_mem_nil, or_false, forall_eq_or_imp, forall_eq]
  refine ⟨one_set _ ?_, one_chr (by decide) .., one_chr (by decide) ..⟩
  simp only [CharSets, Re.AllChars]
  decide

theorem ruleSet24 : RuleSet tr24 (RWide 0x1f600) (rulesWide 0x1f600) := by
  refine ruleSet_of rfl ?_ (by decide)
  simp only [rulesWide, List.mem_cons, List.not_mem_nil, or_false, forall_eq_or_imp, forall_eq]
  refine ⟨one_set _ ?_, one_chr (by decide) .., one_chr (by decide) ..⟩
  simp only [CharSets, Re.AllChars]
  decide

/-- Ids and ends of the first `n` calls. -/
def lexed (tr : Traits) (bytes : Nat) (R : Rules) (inp : List Nat) (n : Nat) : Option (List (Nat × Nat × Nat)) :=
  (buildTemp tr (fun n => n) R).toOption.bind fun sm =>
    (calls ⟨fAll, tr.npos, bytes, sm, inp⟩ 9 n (.mk' tr.npos 0 inp.length)).map (·.map fun r => (r.id, r.first, r.second))
end Ex

theorem Ex.get {tr : Traits} {bytes : Nat} {R : Rules} {inp : List Nat} {n : Nat} {l : List (Nat × Nat × Nat)}
    (h : Ex.lexed tr bytes R inp n = some l) : ∃ sm, buildTemp tr (fun n => n) R = .ok sm := by
  cases hb : buildTemp tr (fun n => n) R with
  | ok sm => exact ⟨sm, rfl⟩
  | error e => simp [Ex.lexed, hb, Except.toOption] at h

/-- A lexer over 16 bit characters meets the hypotheses of C43 (and of C01 and the
others), is built, and returns tokens as the rules say. -/
example : (∃ sm, BuiltFor Ex.tr16 (Ex.RWide 0x263a) (Ex.rulesWide 0x263a) Ex.fAll [0x4e2d, 0x6587, 32, 0x263a] sm) ∧
    Ex.lexed Ex.tr16 2 (Ex.RWide 0x263a) [0x4e2d, 0x6587, 32, 0x263a] 3 = some [(1, 0, 2), (2, 3, 4), (0, 4, 4)] := by
  have hl : Ex.lexed Ex.tr16 2 (Ex.RWide 0x263a) [0x4e2d, 0x6587, 32, 0x263a] 3 = some [(1, 0, 2), (2, 3, 4), (0, 4, 4)] := by
    decide +kernel
  obtain ⟨sm, h⟩ := Ex.get hl
  exact ⟨⟨sm, by decide, Ex.ruleSet16, ⟨by decide, by decide⟩, ⟨_, h⟩, by decide⟩, hl⟩

/-- The same over code points. -/
example : (∃ sm, BuiltFor Ex.tr24 (Ex.RWide 0x1f600) (Ex.rulesWide 0x1f600) Ex.fAll [0x4e2d, 0x6587, 32, 0x1f600] sm) ∧
    Ex.lexed Ex.tr24 3 (Ex.RWide 0x1f600) [0x4e2d, 0x6587, 32, 0x1f600] 3 = some [(1, 0, 2), (2, 3, 4), (0, 4, 4)] := by
  have hl : Ex.lexed Ex.tr24 3 (Ex.RWide 0x1f600) [0x4e2d, 0x6587, 32, 0x1f600] 3 = some [(1, 0, 2), (2, 3, 4), (0, 4, 4)] := by
    decide +kernel
  obtain ⟨sm, h⟩ := Ex.get hl
  exact ⟨⟨sm, by decide, Ex.ruleSet24, ⟨by decide +kernel, by decide +kernel⟩, ⟨_, h⟩, by decide +kernel⟩, hl⟩

/-- The error in C33 reaches users: a lexer for `[\x{4e01}-\x{10ffff}]+` is built, and
`lookup` reports no match at U+10000. -/
theorem C33_wrong_tokens : Ex.lexed Ex.tr24 3 ⟨[[(Ex.rSet [(0x4e01, 0x10ffff)] 1).1]], [0], 0, false, false⟩
    [0x4e2d, 0x10000] 2 = some [(1, 0, 1), (65535, 1, 2)] := by decide +kernel

end Lexertl.Props

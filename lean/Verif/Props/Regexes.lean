import Verif.Proofs.Texts
import Verif.Model.FoldTables
import Verif.Props.Rules
import Verif.Props.Wide

/-
What regex texts mean (C49), and particular texts: ignoring case (C39), numeric escapes
(C40), quoted text (C41).
-/
namespace Lexertl.Props
open Spec Reading

namespace Ex

theorem charsOk : CharsOk env where
  small := by decide
  fold2 := ⟨.nil, by simp [env]⟩
  fold4 := ⟨.nil, by simp [env]⟩
  first2 := by simp [env]
  up4 := by simp [env]
  classes c h := by
    simp only [env, Bool.or_eq_true, Bool.and_eq_true, decide_eq_true_eq] at h
    simp only [List.mem_cons, List.not_mem_nil, or_false]
    omega

/-- Sorted, and from `lo` on. -/
def sortedFrom : Nat → List FoldPair → Bool
  | _, [] => true
  | lo, p :: ps => Nat.ble lo p.1.1 && sortedFrom p.1.1 ps

theorem sortedFrom_spec : ∀ (ps : List FoldPair) (lo : Nat), sortedFrom lo ps = true →
    ps.Pairwise (fun p q => p.1.1 ≤ q.1.1) ∧ ∀ p ∈ ps, lo ≤ p.1.1
  | [], _, _ => ⟨.nil, by simp⟩
  | p :: ps, lo, h => by
    simp only [sortedFrom, Bool.and_eq_true, Nat.ble_eq] at h
    obtain ⟨h1, h2⟩ := sortedFrom_spec ps p.1.1 h.2
    refine ⟨.cons h2 h1, fun q hq => ?_⟩
    simp only [List.mem_cons] at hq
    rcases hq with rfl | hq
    · exact h.1
    · exact Nat.le_trans h.1 (h2 q hq)

theorem foldTable_of {top : Nat} {ps : List FoldPair} (h1 : sortedFrom 0 ps = true)
    (h2 : (ps.all fun p => Nat.ble p.1.1 p.1.2 && Nat.beq (max p.2.1 p.2.2 - min p.2.1 p.2.2) (p.1.2 - p.1.1) && Nat.ble (max p.2.1 p.2.2) top) = true) :
    FoldTable top ps := by
  refine ⟨(sortedFrom_spec ps 0 h1).1, fun p hp => ?_⟩
  have := List.all_eq_true.1 h2 p hp
  simp only [Bool.and_eq_true, Nat.ble_eq, Nat.beq_eq] at this
  exact ⟨this.1.1, this.1.2, this.2⟩

/-- The case folding tables of the library are tables in the sense of the specification. -/
theorem foldTables : FoldTable 0xffff fold2Table ∧ FoldTable 0x10ffff fold4Table ∧ (∀ p ∈ fold2Table, p.1.2 < 0x10000) ∧
    ∀ p ∈ fold4Table, p.2.1 ≤ p.2.2 := by
  refine ⟨foldTable_of (by decide +kernel) (by decide +kernel), foldTable_of (by decide +kernel) (by decide +kernel), ?_, ?_⟩
  · have : (fold2Table.all fun p => Nat.blt p.1.2 0x10000) = true := by decide +kernel
    exact fun p hp => Nat.le_of_ble_eq_true (List.all_eq_true.1 this p hp)
  · have : (fold4Table.all fun p => Nat.ble p.2.1 p.2.2) = true := by decide +kernel
    exact fun p hp => Nat.le_of_ble_eq_true (List.all_eq_true.1 this p hp)

end Ex

/-! ### Meaning -/

theorem allOk_unique {E : TokEnv} {tr : Traits} {o : RulesObj} : ∀ {cs : List Call} {o₁ o₂ : RulesObj},
    AllOk E tr o cs o₁ → AllOk E tr o cs o₂ → o₁ = o₂ := by
  intro cs o₁ o₂ h
  induction h generalizing o₂ with
  | nil =>
    intro h
    exact (allOk_nil h).symm
  | snoc cs o' c o'' _ h2 ih =>
    intro h
    generalize hc : cs ++ [c] = ds at h
    cases h with
    | nil => exact absurd (congrArg List.length hc) (by simp)
    | snoc ds p d p' g1 g2 =>
      obtain ⟨h3, h4⟩ := List.append_inj' hc rfl
      injection h4 with h4 _
      subst h3 h4
      rw [ih g1] at h2
      rw [h2] at g2
      injection g2

theorem program_ids {E : TokEnv} {npos : Nat} {f : ReFlags} {cs : List Call} {M : List (List Nat × Re)} {es : List (Re × Nat × Nat)}
    (h : Program E npos f cs M es) : ∀ e ∈ es, e.2.1 ≠ 0 := by
  induction h with
  | nil => simp
  | mac _ _ _ _ _ _ _ _ _ _ _ _ _ ih => exact ih
  | rule _ _ _ _ _ _ _ _ _ _ _ h0 _ ih =>
    intro e he
    simp only [List.mem_append, List.mem_cons, List.not_mem_nil, or_false] at he
    rcases he with he | rfl
    · exact ih e he
    · exact h0

/-- C49: a text has at most one meaning. -/
theorem C49_meaning_unique {E : TokEnv} (hE : TokEnvOk E) (hC : CharsOk E) {macros : List (List Nat × List Tok)} {M : List (List Nat × Re)}
    (hM : MacrosMean E macros M) {f : ReFlags} {w : List Nat} (hw : TextOk E w) {r q : Re} (h : Means E M f w r) (h' : Means E M f w q) : r = q := by
  obtain ⟨us, h1, h2, _⟩ := tokenise_macro hE hC hM h hw
  obtain ⟨vs, g1, g2, _⟩ := tokenise_macro hE hC hM h' hw
  rw [g1] at h1
  injection h1 with h1
  simp only [List.cons_append, List.cons.injEq, true_and, and_true] at h1
  rw [(List.append_inj' h1 rfl).1] at g2
  exact derives_unique h2 g2

/-- C49: `push` accepts a text that means a greedy expression; it adds one rule, whose tokens
denote this expression. -/
theorem C49_push {E : TokEnv} (hE : TokEnvOk E) (hC : CharsOk E) {tr : Traits} {M : List (List Nat × Re)} {o : RulesObj}
    (hM : MacrosMean E o.macros M) {w : List Nat} {r : Re} {id uid : Nat} (hid : id ≠ 0) (hid' : id ≠ tr.npos) (ho : o.states ≠ [])
    (hw : TextOk E w) (h : Means E M o.flags w r) (hg : r.greedy = true) :
    ∃ m n, o.pushInitial E tr w id uid = (o.extend 0 [⟨m, id, uid, 0, tr.npos, false⟩] n, .ok ()) ∧ Denotes m (some r) := by
  obtain ⟨m, n, h1, h2, _⟩ := pushInitial_means hE hC hM (uid := uid) hid hid' ho hw h hg
  exact ⟨m, n, h1, h2⟩

/-- C49: `insert_macro` accepts a text with a meaning (without `^`, `$`); from then on the
name means the same. -/
theorem C49_macro {E : TokEnv} (hE : TokEnvOk E) (hC : CharsOk E) {M : List (List Nat × Re)} {o : RulesObj}
    (hM : MacrosMean E o.macros M) {name w : List Nat} {r : Re} (hv : validName name = true) (hn : find name o.macros = none)
    (hw : TextOk E w) (h : Means E M o.flags w r) (hb : r.noBol = true) (he : r.noEol = true) :
    ∃ m, o.insertMacro E name w = ({ o with macros := o.macros ++ [(name, m)] }, .ok ()) ∧ Denotes m (some r) ∧
      MacrosMean E (o.macros ++ [(name, m)]) ((name, r) :: M) :=
  insertMacro_means hE hC hM hv hn hw h hb he

/-- C49: from texts to lexers.  A program of macros and rules, all with a meaning, is
accepted.  If a machine is built from it, then, if `k` is the end of the longest non-empty
text matched by the expressions which the texts mean, and the `j`th is the first one
matching it, `lookup` returns this text with the ids of the `j`th rule, and stays in the
initial state. -/
theorem C49_program_lexes {E : TokEnv} (hE : TokEnvOk E) (hC : CharsOk E) {tr : Traits} (hmax : E.max + 1 = charsOf tr) (hnpos : 263 ≤ tr.npos)
    {f : ReFlags} {cs : List Call} {M : List (List Nat × Re)} {es : List (Re × Nat × Nat)} (h : Program E tr.npos f cs M es)
    (hbol : ∀ e ∈ es, e.1.noBol = true) (heol : ∀ e ∈ es, e.1.noEol = true)
    (hplanes : tr.compressed = true → tr.char24 = true → ∀ e ∈ es, e.1.AllChars fun t => ∀ x ∈ t, FewPlanes x)
    (hcount : (es.map fun e => e.1.slots tr).sum + 2 ≤ tr.npos) :
    (∃ o, AllOk E tr (RulesObj.new tr f) cs o) ∧
    ∀ o, AllOk E tr (RulesObj.new tr f) cs o → ∀ addr sm, buildTemp tr addr o.rules = .ok sm →
      ∀ (fl : Flags) (inp : List Nat), (∀ c ∈ inp, c < charsOf tr) →
      ∀ r : Results, r.state = 0 → r.second < r.eoi → r.eoi ≤ inp.length →
      ∀ k j e, Best RMatches (es.map fun e => some e.1) inp r.second r.eoi k j → es[j]? = some e → e.2.1 ≠ tr.npos - 1 →
      ∃ r', lookup fl tr.npos (bytesOf tr) sm inp r = .ok r' ∧ r'.first = r.second ∧ r'.second = k ∧ r'.id = e.2.1 ∧ r'.userId = e.2.2 ∧
        r'.eoi = r.eoi ∧ r'.state = 0 := by
  obtain ⟨o, xs, h1, h2⟩ := program_run hE hC h
  refine ⟨⟨o, h1⟩, ?_⟩
  intro o' ho' addr sm hsm fl inp hinp r hr hp he k j e hbest hj hskip
  rw [allOk_unique ho' h1] at hsm
  have hR := program_ruleSet hmax h2 (fun e he => noBol_head (hbol e he)) heol hplanes hcount
  have hxe : xs.map (·.2) = es.map fun e => some e.1 := by
    have := congrArg (List.map (·.1)) h2.rules
    simpa [Function.comp_def] using this
  obtain ⟨x, hx, hxs⟩ : ∃ x, xs[j]? = some x ∧ (x.2, x.1.id, x.1.userId) = (some e.1, e.2.1, e.2.2) := by
    have := congrArg (fun l : List (Option Re × Nat × Nat) => l[j]?) h2.rules
    simp only [List.getElem?_map, hj, Option.map_some] at this
    obtain ⟨x, hx, hxs⟩ := Option.map_eq_some_iff.1 this
    exact ⟨x, hx, hxs⟩
  injection hxs with _ h4
  injection h4 with h4 h5
  have hmem := List.mem_of_getElem? hx
  have hb : ∀ ys ∈ [xs], ∀ x ∈ ys, NoBol x.2 := by
    intro ys hys z hz
    simp only [List.mem_cons, List.not_mem_nil, or_false] at hys
    subst hys
    have : z.2 ∈ es.map fun e => some e.1 := hxe ▸ List.mem_map_of_mem hz
    obtain ⟨e, he, heq⟩ := List.mem_map.1 this
    rw [← heq]
    exact hbol e he
  obtain ⟨r', g1, g2, g3, g4, g5, g6, g7⟩ := C01_longest_match_earliest_rule hnpos hR hb hsm fl hinp hp he (xs := xs) (by rw [hr]; rfl)
    (hxe ▸ hbest) hx (h4 ▸ hskip) (by rw [h4]; exact program_ids h e (List.mem_of_getElem? hj)) (.inr (h2.each x hmem).2.2.2.1)
  refine ⟨r', g1, g2, g3, g4.trans h4, g5.trans h5, g6, ?_⟩
  rw [g7, (h2.each x hmem).2.1, hr]
  split <;> rfl

/-- C49: the lexer with one rule returns it for the whole of an input exactly if the
expression which the text means matches the input. -/
theorem C49_text_decides {E : TokEnv} (hE : TokEnvOk E) (hC : CharsOk E) {tr : Traits} (hmax : E.max + 1 = charsOf tr) (hnpos : 263 ≤ tr.npos)
    {f : ReFlags} {w : List Nat} {r : Re} (hw : TextOk E w) (h : Means E [] f w r) (hg : r.greedy = true) (hb : r.noBol = true)
    (he : r.noEol = true) (hplanes : tr.compressed = true → tr.char24 = true → r.AllChars fun t => ∀ x ∈ t, FewPlanes x)
    (hcount : r.slots tr + 2 ≤ tr.npos) : TextTakes E tr f w fun inp => r.Matches (inp.map .ch) :=
  means_takes hE hC hmax hnpos hw h hg hb he hplanes hcount

/-! ### Quoted text -/

/-- C41: between quotes, every text stands for itself (`"` and `\` written with a `\` before
them): the lexer takes exactly this text. -/
theorem C41_quoted_literal {E : TokEnv} (hE : TokEnvOk E) (hC : CharsOk E) {tr : Traits} (hmax : E.max + 1 = charsOf tr) (hnpos : 263 ≤ tr.npos)
    {f : ReFlags} (hf : f.icase = false) {v : List Nat} (hv : ∀ c ∈ v, c ≤ E.max) (hne : v ≠ [])
    (hcount : v.length * slotsOf tr [(0, 0)] + 2 ≤ tr.npos) :
    TextTakes E tr f (34 :: quoted v ++ [34]) fun inp => inp = v := by
  obtain ⟨c, cs, rfl⟩ := List.exists_cons_of_ne_nil hne
  obtain ⟨h1, h2, h3, h4, h5⟩ := word_prop c cs
  have hq : ∀ v : List Nat, (∀ c ∈ v, c ≤ E.max) → ∀ c ∈ quoted v, c ≤ E.max := by
    have := hE.big
    intro v
    induction v with
    | nil => intro _ c hc; cases hc
    | cons d v ih =>
      intro hv c hc
      unfold quoted at hc
      have := hv d (by simp)
      split at hc
      · simp only [List.mem_cons] at hc
        rcases hc with rfl | rfl | hc
        · omega
        · omega
        · exact ih (fun e he => hv e (by simp [he])) c hc
      · simp only [List.mem_cons] at hc
        rcases hc with rfl | hc
        · omega
        · exact ih (fun e he => hv e (by simp [he])) c hc
  have hw : TextOk E (34 :: quoted (c :: cs) ++ [34]) := by
    have := hE.big
    intro d hd
    simp only [List.cons_append, List.mem_cons, List.mem_append, List.not_mem_nil, or_false] at hd
    rcases hd with rfl | hd | rfl
    · omega
    · exact hq _ hv d hd
    · omega
  have := means_takes hE hC hmax hnpos hw (quoted_means E [] hf c cs) h1 h2 h3 (fun _ _ => h4) (by rw [h5]; simpa using hcount)
  refine ⟨this.1, fun o ho addr sm hsm fl inp hinp hne => ?_⟩
  refine (this.2 o ho addr sm hsm fl inp hinp hne).trans ((word_matches c cs _).trans ?_)
  constructor
  · intro h
    have := congrArg (List.map fun | Sym.ch c => c | _ => 0) h
    simpa [Function.comp_def] using this
  · rintro rfl
    rfl

/-! ### Numeric escapes -/

/-- The text of one character set: what the lexer takes. -/
theorem atom_takes {E : TokEnv} (hE : TokEnvOk E) (hC : CharsOk E) {tr : Traits} (hmax : E.max + 1 = charsOf tr) (hnpos : 263 ≤ tr.npos)
    (hcomp : tr.compressed = false) {f : ReFlags} {v : List Nat} {S : Nat → Prop} (hw : TextOk E v) (h : AtomText E f false true v S [])
    (hS : ∀ c, S c → c ≤ E.max) : TextTakes E tr f v fun inp => ∃ c, inp = [c] ∧ S c := by
  obtain ⟨t, ht⟩ := isSet_of hS
  have := means_takes hE hC hmax hnpos hw (atom_means (M := []) h ht) rfl rfl rfl (by simp [hcomp])
    (by simp [Re.slots, slotsOf, hcomp]; omega)
  refine ⟨this.1, fun o ho addr sm hsm fl inp hinp hne => ?_⟩
  refine (this.2 o ho addr sm hsm fl inp hinp hne).trans (chars_matches.trans ?_)
  simp only [ht.2]

/-- The text of one character: what the lexer takes. -/
theorem chr_takes {E : TokEnv} (hE : TokEnvOk E) (hC : CharsOk E) {tr : Traits} (hmax : E.max + 1 = charsOf tr) (hnpos : 263 ≤ tr.npos)
    {f : ReFlags} (hf : f.icase = false) {v : List Nat} {c : Nat} (hw : TextOk E v)
    (h : AtomText E f false true v (Closed E f.icase (· = c)) []) (hcount : slotsOf tr [(c, c)] + 2 ≤ tr.npos) :
    TextTakes E tr f v fun inp => inp = [c] := by
  have ht : IsSet [(c, c)] (Closed E f.icase (· = c)) := by
    refine ⟨⟨by simp, by simp⟩, fun x => ?_⟩
    rw [mem_one]
    simp [Closed, hf]
  have := means_takes hE hC hmax hnpos hw (atom_means (M := []) h ht) rfl rfl rfl
    (fun _ _ x hx => by simp at hx; subst hx; exact .inl (Nat.le_succ _)) hcount
  refine ⟨this.1, fun o ho addr sm hsm fl inp hinp hne => ?_⟩
  refine (this.2 o ho addr sm hsm fl inp hinp hne).trans (chars_matches.trans ?_)
  simp only [mem_one]
  exact ⟨fun ⟨d, h1, h2⟩ => by rw [h1, h2], fun h => ⟨c, h, rfl⟩⟩

/-- C40: `\x` and hexadecimal digits, as many as there are, stand for the character with
this value, if there is one. -/
theorem C40_hex {E : TokEnv} (hE : TokEnvOk E) (hC : CharsOk E) {tr : Traits} (hmax : E.max + 1 = charsOf tr) (hnpos : 263 ≤ tr.npos)
    {f : ReFlags} (hf : f.icase = false) {ds : List Nat} (hne : ds ≠ []) (hd : ∀ d ∈ ds, IsHexDigit d) (hv : hexVal ds ≤ E.max) :
    TextTakes E tr f (92 :: 120 :: ds) fun inp => inp = [hexVal ds] := by
  have hb := hE.big
  refine chr_takes hE hC hmax hnpos hf (fun d h => ?_) (.esc false true (120 :: ds) _ [] (.hex ds [] hne hd (by simp) hv)) ?_
  · simp only [List.mem_cons] at h
    rcases h with rfl | rfl | h
    · omega
    · omega
    · have := hd d h
      unfold IsHexDigit at this
      omega
  · simp only [slotsOf, bytesOf]
    repeat' split
    all_goals simp
    all_goals omega

/-- C40: `\` and one to three octal digits stand for the character with this value, if there is
one. -/
theorem C40_octal {E : TokEnv} (hE : TokEnvOk E) (hC : CharsOk E) {tr : Traits} (hmax : E.max + 1 = charsOf tr) (hnpos : 263 ≤ tr.npos)
    {f : ReFlags} (hf : f.icase = false) {ds : List Nat} (hne : ds ≠ []) (hl : ds.length ≤ 3) (hd : ∀ d ∈ ds, IsOct d)
    (hv : octVal ds ≤ E.max) : TextTakes E tr f (92 :: ds) fun inp => inp = [octVal ds] := by
  have hb := hE.big
  refine chr_takes hE hC hmax hnpos hf (fun d h => ?_) (.esc false true ds _ [] (.octal ds [] hne hl hd (by simp) hv)) ?_
  · simp only [List.mem_cons] at h
    rcases h with rfl | h
    · omega
    · have := hd d h
      unfold IsOct at this
      omega
  · simp only [slotsOf, bytesOf]
    repeat' split
    all_goals simp
    all_goals omega

/-- C40: a rule with an escape whose value is too big is refused, and nothing changes.
`pre`: characters without a meaning of their own before the escape.  Partial: the value is
compared modulo `2^64` (`C40_hex_wraps`); the whole claim has `hexVal ds` instead of
`hexVal ds % 2^64`. -/
theorem C40_hex_refused_partial {E : TokEnv} {tr : Traits} (o : RulesObj) {pre ds rest : List Nat}
    (hp : ∀ c ∈ pre, PlainChar o.flags c) (hne : ds ≠ []) (hd : ∀ d ∈ ds, IsHexDigit d) (hr : ∀ d ∈ rest.head?, ¬ IsHexDigit d)
    (hbig : E.max < hexVal ds % 2 ^ 64) (id uid : Nat) :
    ∃ what, o.pushInitial E tr (pre ++ 92 :: (120 :: ds ++ rest)) id uid = (o, throw_ what) :=
  push_refused hp (escapeTok_hex hne hd hr hbig _)

/-- C40: the same with octal digits, without exception. -/
theorem C40_octal_refused {E : TokEnv} {tr : Traits} (o : RulesObj) {pre ds rest : List Nat}
    (hp : ∀ c ∈ pre, PlainChar o.flags c) (hne : ds ≠ []) (hl : ds.length ≤ 3) (hd : ∀ d ∈ ds, IsOct d)
    (hr : ds.length < 3 → ∀ d ∈ rest.head?, ¬ IsOct d) (hbig : E.max < octVal ds) (id uid : Nat) :
    ∃ what, o.pushInitial E tr (pre ++ 92 :: (ds ++ rest)) id uid = (o, throw_ what) :=
  push_refused hp (escapeTok_oct hne hl hd hr hbig _)

/-- C40 fails for long digit strings: `\x10000000000000041` has the value 2^64 + 65, is not
refused, and stands for `A`. -/
theorem C40_hex_wraps :
    let text := chars "\\x10000000000000041"
    hexVal (text.drop 2) = 2 ^ 64 + 65 ∧
      (Ex.obj0.pushInitial Ex.env Ex.tr text 1 0).2.toOption = some () ∧
      (Ex.obj0.pushInitial Ex.env Ex.tr text 1 0).1.states.map (·.map fun r => r.regex.map (·.str)) = [[[[], [(65, 65)], []]]] := by
  refine ⟨by decide +kernel, by decide +kernel, by decide +kernel⟩

/-! ### Ignoring case -/

/-- The lower case of ASCII letters, everything else as it is. -/
def asciiLower (c : Nat) : Nat := if 65 ≤ c ∧ c ≤ 90 then c + 32 else c

/-- The locale changes the case of ASCII letters only. -/
structure AsciiCase (E : TokEnv) : Prop where
  size : E.size = 1
  upper : ∀ c, E.upper c = if 97 ≤ c ∧ c ≤ 122 then c - 32 else c
  lower : ∀ c, E.lower c = asciiLower c

theorem asciiClosed {E : TokEnv} (h : AsciiCase E) (S : Nat → Prop) (d : Nat) :
    Closed E true S d ↔ ∃ c, S c ∧ asciiLower d = asciiLower c := by
  unfold Closed OtherCase
  simp only [h.size, if_true, true_and, h.upper, h.lower]
  constructor
  · rintro (h | ⟨c, h1, h2⟩)
    · exact ⟨d, h, rfl⟩
    · refine ⟨c, h1, ?_⟩
      unfold asciiLower at h2 ⊢
      grind
  · rintro ⟨c, h1, h2⟩
    by_cases hc : c = d
    · exact .inl (hc ▸ h1)
    · refine .inr ⟨c, h1, ?_⟩
      unfold asciiLower at h2 ⊢
      grind

theorem asciiLower_le {c d : Nat} (h : asciiLower d = asciiLower c) (hc : c ≤ 255) : d ≤ 255 := by
  unfold asciiLower at h
  grind

/-- C39: ignoring case, one character without a meaning of its own takes exactly the
characters equal to it up to ASCII case. -/
theorem C39_icase_char {E : TokEnv} (hE : TokEnvOk E) (hC : CharsOk E) (hA : AsciiCase E) {tr : Traits} (hmax : E.max + 1 = charsOf tr)
    (hnpos : 263 ≤ tr.npos) (hcomp : tr.compressed = false) {f : ReFlags} (hf : f.icase = true) {c : Nat} (hc : c ≤ E.max)
    (hp : PlainChar f c) : TextTakes E tr f [c] fun inp => ∃ d, inp = [d] ∧ asciiLower d = asciiLower c := by
  have hm := hE.byte hA.size
  have := atom_takes hE hC hmax hnpos hcomp (f := f) (v := [c]) (S := Closed E f.icase (· = c)) (fun d h => by simp at h; omega)
    (.plain true c [] hp.1 hp.2) (fun d h => by
      rw [hf, asciiClosed hA] at h
      obtain ⟨e, rfl, h⟩ := h
      have := asciiLower_le h (by omega)
      omega)
  refine ⟨this.1, fun o ho addr sm hsm fl inp hinp hne => ?_⟩
  refine (this.2 o ho addr sm hsm fl inp hinp hne).trans ?_
  simp only [hf, asciiClosed hA]
  constructor
  · rintro ⟨d, h1, e, rfl, h⟩
    exact ⟨d, h1, h⟩
  · rintro ⟨d, h1, h⟩
    exact ⟨d, h1, c, rfl, h⟩

/-- C39: ignoring case, a range takes exactly the characters equal to one of its members up to
ASCII case.  `v`, `w`: the texts of the bounds, as they are or as escapes. -/
theorem C39_icase_range {E : TokEnv} (hE : TokEnvOk E) (hC : CharsOk E) (hA : AsciiCase E) {tr : Traits} (hmax : E.max + 1 = charsOf tr)
    (hnpos : 263 ≤ tr.npos) (hcomp : tr.compressed = false) {f : ReFlags} (hf : f.icase = true) {v w : List Nat} {x y : Nat}
    (hv : Chr E.max v x (45 :: w ++ [93])) (hw : Chr E.max w y [93]) (hv' : TextOk E v) (hw' : TextOk E w)
    (hhat : v.head? ≠ some 94) (hclose : w.head? ≠ some 93) (hxy : x ≤ y) :
    TextTakes E tr f (91 :: (v ++ 45 :: w) ++ [93]) fun inp => ∃ c d, inp = [d] ∧ x ≤ c ∧ c ≤ y ∧ asciiLower d = asciiLower c := by
  have hm := hE.byte hA.size
  have hy : y ≤ E.max := chr_le hE hw hw'
  have hvne : v ≠ [] := by rintro rfl; cases hv
  have hb : Brackets E f.icase .whole (v ++ 45 :: w ++ [93]) (Closed E f.icase fun c => x ≤ c ∧ c ≤ y) [] := by
    refine .pos _ _ ?_ (.last true _ _ (.inl rfl) (.range v x w y [93] hv hw hclose hxy)) ⟨x, .inl ⟨Nat.le_refl _, hxy⟩⟩
    obtain ⟨a, as, rfl⟩ := List.exists_cons_of_ne_nil hvne
    simpa using hhat
  have := atom_takes hE hC hmax hnpos hcomp (f := f) (v := 91 :: (v ++ 45 :: w ++ [93]))
    (S := Closed E f.icase fun c => x ≤ c ∧ c ≤ y) (fun d h => by
      simp only [List.mem_cons, List.mem_append, List.not_mem_nil, or_false] at h
      have := hE.big
      rcases h with rfl | (h | rfl | h) | rfl
      · omega
      · exact hv' d h
      · omega
      · exact hw' d h
      · omega) (.set true _ _ [] hb) (fun d h => by
      rw [hf, asciiClosed hA] at h
      obtain ⟨e, ⟨_, h1⟩, h⟩ := h
      have := asciiLower_le h (by omega)
      omega)
  refine ⟨this.1, fun o ho addr sm hsm fl inp hinp hne => ?_⟩
  refine (this.2 o ho addr sm hsm fl inp hinp hne).trans ?_
  simp only [hf, asciiClosed hA]
  constructor
  · rintro ⟨d, h1, c, ⟨h2, h3⟩, h⟩
    exact ⟨c, d, h1, h2, h3, h⟩
  · rintro ⟨c, d, h1, h2, h3, h⟩
    exact ⟨d, h1, c, ⟨h2, h3⟩, h⟩

/-- C39 for wider characters: one character without a meaning of its own takes itself and what
the tables have for it. -/
theorem C39_icase_wide {E : TokEnv} (hE : TokEnvOk E) (hC : CharsOk E) (hs : E.size ≠ 1) {tr : Traits} (hmax : E.max + 1 = charsOf tr)
    (hnpos : 263 ≤ tr.npos) {f : ReFlags} (hf : f.icase = true) {c : Nat} (hc : c ≤ E.max) (hp : PlainChar f c) {t : List (Nat × Nat)}
    (ht : IsSet t fun d => d = c ∨ (∃ p ∈ E.fold2, FoldLine p c d) ∨ (E.size ≠ 2 ∧ ∃ p ∈ E.fold4, FoldLine p c d))
    (hplanes : ∀ x ∈ t, FewPlanes x) (hcount : slotsOf tr t + 2 ≤ tr.npos) : TextTakes E tr f [c] fun inp => ∃ d, inp = [d] ∧ Mem d t := by
  have hset : IsSet t (Closed E f.icase (· = c)) := by
    refine ⟨ht.1, fun d => (ht.2 d).trans ?_⟩
    simp [Closed, OtherCase, hf, hs]
  have := means_takes hE hC hmax hnpos (fun d h => by simp at h; omega) (atom_means (M := []) (.plain true c [] hp.1 hp.2) hset) rfl rfl rfl
    (fun _ _ => hplanes) hcount
  refine ⟨this.1, fun o ho addr sm hsm fl inp hinp hne => ?_⟩
  exact (this.2 o ho addr sm hsm fl inp hinp hne).trans chars_matches

namespace Ex

/-- 16 bit characters with the library's case folding table. -/
def envFold : TokEnv where
  max := 65535
  size := 2
  upper c := c
  lower c := c
  isAlnum _ := false
  isAlpha _ := false
  isLower _ := false
  isUpper _ := false
  fold2 := fold2Table
  fold4 := []
  unicode _ := none

theorem foldOk_of {top : Nat} {ps : List FoldPair} (h : FoldTable top ps) : ∀ p ∈ ps, FoldOk top p := by
  intro p hp
  obtain ⟨h1, h2, h3⟩ := h.length p hp
  refine ⟨h1, ?_⟩
  split <;> omega

theorem envFoldOk : TokEnvOk envFold where
  big := by decide
  byte := by intro h; cases h
  upper c hc := hc
  lower c hc := hc
  fold2 := foldOk_of foldTables.1
  fold4 := by intro p hp; cases hp
  classes c h := by simp [envFold] at h
  unicode := by intro _ _ h; cases h
  nest := by intro _ _ _ _ _ _ h; cases h

theorem envFoldChars : CharsOk envFold where
  small := by decide
  fold2 := foldTables.1
  fold4 := ⟨.nil, by simp [envFold]⟩
  first2 := foldTables.2.2.1
  up4 := by simp [envFold]
  classes c h := by simp [envFold] at h

end Ex

/-- C39 fails for letters whose two cases are neighbours: with the library's table, `Ā`
(0x100), ignoring case, takes `Ā` and nothing else, in particular not `ā` (0x101). -/
theorem C39_neighbours_not_folded : TextTakes Ex.envFold Ex.tr16 { icase := true } [0x100] fun inp => inp = [0x100] := by
  have h : ∀ p ∈ fold2Table, p.1.1 ≤ 0x100 ∧ 0x100 ≤ p.1.2 → min p.2.1 p.2.2 + (0x100 - p.1.1) = 0x100 := by
    have : (fold2Table.all fun p => !(Nat.ble p.1.1 0x100 && Nat.ble 0x100 p.1.2) || Nat.beq (min p.2.1 p.2.2 + (0x100 - p.1.1)) 0x100) = true := by
      decide +kernel
    intro p hp hb
    have := List.all_eq_true.1 this p hp
    simp only [Bool.or_eq_true, Bool.not_eq_true', Bool.and_eq_false_iff, Nat.beq_eq] at this
    rcases this with (h | h) | h
    · have := Nat.ble_eq_true_of_le hb.1
      rw [h] at this; cases this
    · have := Nat.ble_eq_true_of_le hb.2
      rw [h] at this; cases this
    · exact h
  have ht : IsSet [(0x100, 0x100)] fun d => d = 0x100 ∨ (∃ p ∈ Ex.envFold.fold2, FoldLine p 0x100 d) ∨
      (Ex.envFold.size ≠ 2 ∧ ∃ p ∈ Ex.envFold.fold4, FoldLine p 0x100 d) := by
    refine ⟨⟨by simp, by simp⟩, fun d => ?_⟩
    rw [mem_one]
    constructor
    · exact .inl
    · rintro (h1 | ⟨p, hp, h1, h2, h3⟩ | ⟨h1, _⟩)
      · exact h1
      · rw [h3]; exact h p hp ⟨h1, h2⟩
      · exact absurd rfl h1
  have := C39_icase_wide Ex.envFoldOk Ex.envFoldChars (by decide) (tr := Ex.tr16) (by decide) (by decide) (f := { icase := true }) rfl
    (c := 0x100) (by decide) ⟨by decide, by decide⟩ ht (by decide) (by decide)
  refine ⟨this.1, fun o ho addr sm hsm fl inp hinp hne => ?_⟩
  refine (this.2 o ho addr sm hsm fl inp hinp hne).trans ?_
  simp only [mem_one]
  exact ⟨fun ⟨d, h1, h2⟩ => by rw [h1, h2], fun h => ⟨0x100, h, rfl⟩⟩

/-! ### Examples -/

namespace Ex

theorem isSet_range {x y : Nat} (h : x ≤ y) : IsSet [(x, y)] (Closed env false fun c => x ≤ c ∧ c ≤ y) := by
  refine ⟨⟨by simpa using h, by simp⟩, fun c => ?_⟩
  simp [Closed, Mem]

theorem isSet_chr (x : Nat) : IsSet [(x, x)] (Closed env false (· = x)) := by
  refine ⟨⟨by simp, by simp⟩, fun c => ?_⟩
  rw [mem_one]
  simp [Closed]

/-- A macro, and two rules. -/
def progCalls : List Call :=
  [.insertMacro (chars "D") (chars "[0-9]"), .push (chars "{D}+") 1 5, .push (chars "(?# x)\"if\"|[a-f]{-}[c]") 2 6]

def digits : Re := .chars [(48, 57)]
def wordIf : Re := .alt (.seq (.chars [(105, 105)]) (.chars [(102, 102)])) (.chars [(97, 98), (100, 102)])

theorem means_digits : Means env [] {} (chars "[0-9]") digits :=
  atom_means (.set true [48, 45, 57, 93] _ [] (.pos _ _ (by decide) (.last true [48, 45, 57] _ (.inl rfl)
    (.range [48] 48 [57] 57 [93] (.self 48 _ (by decide) (by decide)) (.self 57 _ (by decide) (by decide)) (by decide) (by decide)))
    ⟨48, .inl (by decide)⟩)) (isSet_range (by decide))

theorem means_number : Means env [(chars "D", digits)] {} (chars "{D}+") (.plus digits false) :=
  ⟨[.mac (chars "D"), .rep 1 none false],
    .mac true {} [] (chars "D") [43] _ ⟨⟨68, rfl, by decide⟩, by simp [chars]⟩ (.rep false {} [] [43] 1 none [] _ (by decide) (by decide) (.done _ _)),
    .alt1 _ _ (.seq1 _ _ (.rep [.mac (chars "D")] digits 1 none false (.mac _ _ (by decide))))⟩

theorem means_word : Means env [(chars "D", digits)] {} (chars "(?# x)\"if\"|[a-f]{-}[c]") wordIf := by
  refine ⟨[.chars [(105, 105)], .chars [(102, 102)], .bar, .chars [(97, 102)], .minus, .chars [(99, 99)]], ?_, ?_⟩
  · refine .comment true {} [] [32, 120, 41] (chars "\"if\"|[a-f]{-}[c]") _ (.other _ _ _ (by decide) (by decide) (.other _ _ _ (by decide) (by decide) .done)) ?_
    refine .quote false {} [] false (chars "if\"|[a-f]{-}[c]") _ ?_
    refine .atom false {} [] true [105] _ _ (chars "f\"|[a-f]{-}[c]") _ (.quoted _ _ _ (by decide) (by decide)) (isSet_chr 105) ?_
    refine .atom false {} [] true [102] _ _ (chars "\"|[a-f]{-}[c]") _ (.quoted _ _ _ (by decide) (by decide)) (isSet_chr 102) ?_
    refine .quote false {} [] true (chars "|[a-f]{-}[c]") _ ?_
    refine .bar false {} [] (chars "[a-f]{-}[c]") _ ?_
    refine .atom false {} [] false (chars "[a-f]") _ _ (chars "{-}[c]") _
      (.set _ [97, 45, 102, 93] _ _ (.pos _ _ (by decide) (.last true [97, 45, 102] _ (.inl rfl)
        (.range [97] 97 [102] 102 [93] (.self 97 _ (by decide) (by decide)) (.self 102 _ (by decide) (by decide)) (by decide) (by decide)))
        ⟨97, .inl (by decide)⟩)) (isSet_range (by decide)) ?_
    refine .minus false {} [] (chars "[c]") _ ?_
    exact .atom false {} [] false (chars "[c]") _ _ [] _
      (.set _ [99, 93] _ _ (.pos _ _ (by decide) (.last true [99] _ (.inl rfl)
        (.char [99] 99 [93] (.self 99 _ (by decide) (by decide)) (by decide))) ⟨99, .inl rfl⟩)) (isSet_chr 99) (.done _ _)
  · refine .alt [.chars [(105, 105)], .chars [(102, 102)]] [.chars [(97, 102)], .minus, .chars [(99, 99)]] _ _ (.alt1 _ _ (.seq [.chars [(105, 105)]] [.chars [(102, 102)]] _ _
      (.seq1 _ _ (.item _ _ (.set _ _ (.chars _)))) (.item _ _ (.set _ _ (.chars _))))) (.seq1 _ _ (.item _ _ (.set _ _
      (.minus [.chars [(97, 102)]] (.chars [(99, 99)]) [(97, 102)] [(99, 99)] _ (.chars _) (.chars _) ⟨⟨by decide, by decide⟩, fun c => ?_⟩ (by decide)))))
    simp only [Mem, List.mem_cons, List.not_mem_nil, or_false, exists_eq_or_imp, exists_eq_left]
    omega

/-- The program has a meaning. -/
theorem program : Program env tr.npos {} progCalls [(chars "D", digits)] [(.plus digits false, 1, 5), (wordIf, 2, 6)] :=
  .rule [.insertMacro (chars "D") (chars "[0-9]"), .push (chars "{D}+") 1 5] _ [(.plus digits false, 1, 5)] _ _ _ _
    (.rule [.insertMacro (chars "D") (chars "[0-9]")] _ [] _ _ _ _
      (.mac [] [] [] _ _ _ .nil (by decide) rfl (by unfold TextOk; decide) means_digits rfl rfl) (by unfold TextOk; decide) means_number rfl (by decide) (by decide))
    (by unfold TextOk; decide) means_word rfl (by decide) (by decide)

end Ex

/-- The hypotheses of C49 are met by a program with a macro, a repetition, a comment, quotes and
a difference of charsets, and a machine is built from it. -/
example : (∃ M es, Program Ex.env Ex.tr.npos {} Ex.progCalls M es ∧ (∀ e ∈ es, e.1.noBol = true) ∧ (∀ e ∈ es, e.1.noEol = true) ∧
      (es.map fun e => e.1.slots Ex.tr).sum + 2 ≤ Ex.tr.npos ∧ es.length = 2) ∧
    Ex.env.max + 1 = charsOf Ex.tr ∧ (buildTemp Ex.tr (fun i => i) (Ex.runs Ex.progCalls Ex.obj0).rules).isOk = true := by
  refine ⟨⟨_, _, Ex.program, by decide, by decide, by decide, rfl⟩, by decide, by decide +kernel⟩

/-- C41, C40 and C39 apply to these texts: a quoted text with all kinds of special
characters, `\x41`, `\101`; ignoring case, `k` and `[W-c]`; `\x100` after `ab` is refused. -/
example : TextTakes Ex.env Ex.tr {} (chars "\"a\\\"*[x]\\\\ $\"") (fun inp => inp = chars "a\"*[x]\\ $") ∧
    TextTakes Ex.env Ex.tr {} (chars "\\x41") (fun inp => inp = [65]) ∧
    TextTakes Ex.env Ex.tr {} (chars "\\101") (fun inp => inp = [65]) ∧
    TextTakes Ex.env Ex.tr { icase := true } (chars "k") (fun inp => ∃ d, inp = [d] ∧ asciiLower d = 107) ∧
    TextTakes Ex.env Ex.tr { icase := true } (chars "[W-c]")
      (fun inp => ∃ c d, inp = [d] ∧ 87 ≤ c ∧ c ≤ 99 ∧ asciiLower d = asciiLower c) ∧
    (∃ what, Ex.obj0.pushInitial Ex.env Ex.tr (chars "ab\\x100*") 1 0 = (Ex.obj0, throw_ what)) ∧
    (∃ what, Ex.obj0.pushInitial Ex.env Ex.tr (chars "ab\\400") 1 0 = (Ex.obj0, throw_ what)) := by
  have hA : AsciiCase Ex.env := ⟨rfl, fun c => rfl, fun c => rfl⟩
  refine ⟨?_, ?_, ?_, ?_, ?_, ?_, ?_⟩
  · exact C41_quoted_literal Ex.envOk Ex.charsOk (by decide) (by decide) rfl (v := chars "a\"*[x]\\ $") (by decide) (by decide) (by decide)
  · exact C40_hex Ex.envOk Ex.charsOk (by decide) (by decide) rfl (ds := [52, 49]) (by decide) (by decide) (by decide)
  · exact C40_octal Ex.envOk Ex.charsOk (by decide) (by decide) rfl (ds := [49, 48, 49]) (by decide) (by decide) (by decide) (by decide)
  · exact C39_icase_char Ex.envOk Ex.charsOk hA (by decide) (by decide) rfl rfl (c := 107) (by decide) ⟨by decide, by decide⟩
  · exact C39_icase_range Ex.envOk Ex.charsOk hA (by decide) (by decide) rfl rfl (v := [87]) (w := [99]) (.self 87 _ (by decide) (by decide))
      (.self 99 _ (by decide) (by decide)) (by unfold TextOk; decide) (by unfold TextOk; decide) (by decide) (by decide) (by decide)
  · exact C40_hex_refused_partial Ex.obj0 (pre := [97, 98]) (ds := [49, 48, 48]) (rest := [42]) (by simp [PlainChar, metaChars, IsSpace]) (by decide)
      (by decide) (by decide) (by decide) 1 0
  · exact C40_octal_refused Ex.obj0 (pre := [97, 98]) (ds := [52, 48, 48]) (rest := []) (by simp [PlainChar, metaChars, IsSpace]) (by decide)
      (by decide) (by decide) (by decide) (by decide) 1 0

/-- A comment before `^` makes it a character: `(?#)^` takes the text `^`. -/
theorem C49_comment_before_caret : Means Ex.env [] {} (chars "(?#)^") (.chars [(94, 94)]) ∧ Means Ex.env [] {} (chars "^a") (.seq .bol (.chars [(97, 97)])) := by
  refine ⟨⟨[.chars [(94, 94)]], .comment true {} [] [41] [94] _ .done (.atom false {} [] false [94] _ _ [] _ (.caret []) ⟨⟨by decide, by decide⟩, fun c => mem_one c 94⟩ (.done _ _)),
    .alt1 _ _ (.seq1 _ _ (.item _ _ (.set _ _ (.chars _))))⟩, ?_⟩
  exact ⟨[.bol, .chars [(97, 97)]], .bol _ _ _ _ (.atom false {} [] false [97] _ _ [] _ (.plain _ _ _ (by decide) (by decide)) (Ex.isSet_chr 97) (.done _ _)),
    .alt1 _ _ (.seq [.bol] [.chars [(97, 97)]] _ _ (.seq1 _ _ (.item _ _ .bol)) (.item _ _ (.set _ _ (.chars _))))⟩

/-- A `-` among the options switches off the next one only: `(?-is:` switches off `i` and
switches on `s`. -/
theorem C49_minus_one_option :
    Options false { icase := true, dotNotNewline := true } (chars "-is:") { icase := false, dotNotNewline := false } ∧
      readOptions false { icase := true, dotNotNewline := true } (chars "-is:") = .ok ({ icase := false, dotNotNewline := false }, []) :=
  ⟨.minus _ _ _ _ (.icase _ _ _ _ (.dot _ _ _ _ (.done _ _))), rfl⟩

end Lexertl.Props

import Verif.Proofs.Program
import Verif.Proofs.Whole
import Verif.Spec.Takes

/-
Texts of single rules: what they take.
-/
namespace Lexertl.Reading
open Spec

theorem allOk_nil {E : TokEnv} {tr : Traits} {o o' : RulesObj} (h : AllOk E tr o [] o') : o' = o := by
  generalize hc : ([] : List Call) = cs at h
  cases h with
  | nil => rfl
  | snoc => exact absurd (congrArg List.length hc) (by simp)

theorem oneRule_run {E : TokEnv} {tr : Traits} {f : ReFlags} {w : List Nat} {o : RulesObj}
    (h : AllOk E tr (RulesObj.new tr f) [.push w 1 0] o) : (RulesObj.new tr f).pushInitial E tr w 1 0 = (o, .ok ()) := by
  generalize hc : [Call.push w 1 0] = cs at h
  cases h with
  | nil => cases hc
  | snoc cs o' c _ h1 h2 =>
    have := List.append_inj' (s₁ := []) (t₁ := [Call.push w 1 0]) hc rfl
    obtain ⟨h3, h4⟩ := this
    subst h3
    injection h4 with h4 _
    subst h4
    rw [allOk_nil h1] at h2
    exact h2

theorem means_takes {E : TokEnv} (hE : TokEnvOk E) (hC : CharsOk E) {tr : Traits} (hmax : E.max + 1 = charsOf tr) (hnpos : 263 ≤ tr.npos)
    {f : ReFlags} {w : List Nat} {r : Re} (hw : TextOk E w) (h : Means E [] f w r) (hg : r.greedy = true) (hb : r.noBol = true)
    (he : r.noEol = true) (hplanes : tr.compressed = true → tr.char24 = true → r.AllChars fun t => ∀ x ∈ t, FewPlanes x)
    (hcount : r.slots tr + 2 ≤ tr.npos) :
    TextTakes E tr f w fun inp => r.Matches (inp.map .ch) := by
  have hp : Program E tr.npos f [.push w 1 0] [] [(r, 1, 0)] := .rule [] [] [] w r 1 0 .nil hw h hg (by decide) (by omega)
  obtain ⟨o, xs, h1, h2⟩ := program_run hE hC (tr := tr) hp
  refine ⟨⟨o, h1⟩, ?_⟩
  intro o' ho' addr sm hsm fl inp hinp hne
  have e1 := oneRule_run h1
  rw [oneRule_run ho'] at e1
  injection e1 with e1 _
  subst e1
  have hR := program_ruleSet hmax h2 (by simp; exact noBol_head hb) (by simpa using he)
    (fun a b => by simpa using hplanes a b) (by simpa using hcount)
  obtain ⟨x, rfl⟩ : ∃ x, xs = [x] := by
    have := congrArg List.length h2.rules
    simp at this
    exact List.length_eq_one_iff.1 this
  have hx : x.2 = some r ∧ x.1.id = 1 := by
    have := h2.rules
    simp at this
    exact ⟨this.1, this.2.1⟩
  have hpop := (h2.each x (by simp)).2.2.2.1
  have := whole_match hnpos hR (by rw [hx.1]; exact hb) hsm fl hinp hne (by rw [hx.2]; omega) (by rw [hx.2]; omega)
    (by rw [hx.2]; simp [RulesObj.rules]) hpop
  rw [hx.1, hx.2] at this
  exact this

/-! ### Sets -/

theorem isSet_of {max : Nat} {S : Nat → Prop} (h : ∀ c, S c → c ≤ max) : ∃ t, IsSet t S := by
  have : ∀ n, ∃ t, IsSet t (fun c => c < n ∧ S c) := by
    intro n
    induction n with
    | zero => exact ⟨[], ⟨by simp, .nil⟩, fun c => ⟨fun h => absurd h (Token.mem_nil c), fun h => by omega⟩⟩
    | succ n ih =>
      obtain ⟨t, h1, h2⟩ := ih
      by_cases hn : S n
      · refine ⟨Token.insert t (n, n), Token.insert_normal t (n, n) h1 (Nat.le_refl _), fun c => ?_⟩
        rw [Token.mem_insert t (n, n) h1 (Nat.le_refl _), h2 c]
        constructor
        · rintro (h | h)
          · exact ⟨by omega, h.2⟩
          · obtain rfl : c = n := by simp at h; omega
            exact ⟨by omega, hn⟩
        · rintro ⟨h3, h4⟩
          rcases Nat.lt_succ_iff_lt_or_eq.1 h3 with h | rfl
          · exact .inl ⟨h, h4⟩
          · exact .inr ⟨Nat.le_refl _, Nat.le_refl _⟩
      · refine ⟨t, h1, fun c => ?_⟩
        rw [h2 c]
        constructor
        · exact fun h => ⟨by omega, h.2⟩
        · rintro ⟨h3, h4⟩
          rcases Nat.lt_succ_iff_lt_or_eq.1 h3 with h | rfl
          · exact ⟨h, h4⟩
          · exact absurd h4 hn
  obtain ⟨t, h1, h2⟩ := this (max + 1)
  exact ⟨t, h1, fun c => (h2 c).trans ⟨fun h => h.2, fun hs => ⟨by have := h c hs; omega, hs⟩⟩⟩

/-- The text of one character set. -/
theorem atom_means {E : TokEnv} {M : List (List Nat × Re)} {f : ReFlags} {v : List Nat} {S : Nat → Prop} {t : Token}
    (h : AtomText E f false true v S []) (ht : IsSet t S) : Means E M f v (.chars t) := by
  refine ⟨[.chars t], ?_, .alt1 _ _ (.seq1 _ _ (.item _ _ (.set _ _ (.chars t))))⟩
  have := Spec.Reads.atom true f [] false v S t [] [] h ht (.done false f)
  simpa using this

theorem chars_matches {t : Token} {inp : List Nat} : (Re.chars t).Matches (inp.map .ch) ↔ ∃ c, inp = [c] ∧ Mem c t := by
  constructor
  · rintro ⟨c, h1, h2⟩
    refine ⟨c, ?_, h1⟩
    cases inp with
    | nil => cases h2
    | cons a as =>
      simp at h2
      rw [h2.1, h2.2]
  · rintro ⟨c, rfl, h⟩
    exact ⟨c, h, rfl⟩

/-! ### Words -/

/-- The expression that matches just this word. -/
def word (c : Nat) (cs : List Nat) : Re := cs.foldl (fun r d => .seq r (.chars [(d, d)])) (.chars [(c, c)])

theorem word_snoc (c d : Nat) (cs : List Nat) : word c (cs ++ [d]) = .seq (word c cs) (.chars [(d, d)]) := by
  simp [word]

theorem snoc_induction {P : List Nat → Prop} (h0 : P []) (h1 : ∀ cs d, P cs → P (cs ++ [d])) : ∀ cs, P cs := by
  intro cs
  have : ∀ r, P (List.reverse r) := by
    intro r
    induction r with
    | nil => exact h0
    | cons d r ih => rw [List.reverse_cons]; exact h1 _ _ ih
  simpa using this cs.reverse

theorem mem_one (x c : Nat) : Mem x [(c, c)] ↔ x = c := by
  constructor
  · rintro ⟨r, hr, h1, h2⟩
    simp at hr; subst hr
    simp at h1 h2; omega
  · rintro rfl
    exact ⟨(x, x), by simp, Nat.le_refl _, Nat.le_refl _⟩

theorem word_matches (c : Nat) : ∀ (cs : List Nat) (w : List Sym), (word c cs).Matches w ↔ w = (c :: cs).map .ch := by
  refine snoc_induction ?_ ?_
  · intro w
    show (∃ x, Mem x [(c, c)] ∧ w = [.ch x]) ↔ _
    simp [mem_one]
  · intro cs d ih w
    rw [word_snoc]
    show (∃ u v, w = u ++ v ∧ _ ∧ ∃ x, Mem x [(d, d)] ∧ v = [.ch x]) ↔ _
    simp [ih, mem_one]

theorem word_prop (c : Nat) : ∀ cs, (word c cs).greedy = true ∧ (word c cs).noBol = true ∧ (word c cs).noEol = true ∧
    ((word c cs).AllChars fun t => ∀ x ∈ t, FewPlanes x) ∧ ∀ tr, (word c cs).slots tr = (cs.length + 1) * slotsOf tr [(0, 0)] := by
  refine snoc_induction ?_ ?_
  · refine ⟨rfl, rfl, rfl, ?_, ?_⟩
    · intro x hx; simp at hx; subst hx; exact .inl (Nat.le_succ _)
    · intro tr; simp [word, Re.slots, slotsOf]
  · intro cs d ⟨h1, h2, h3, h4, h5⟩
    rw [word_snoc]
    refine ⟨by simp [Re.greedy, h1], by simp [Re.noBol, h2], by simp [Re.noEol, h3], ⟨h4, ?_⟩, fun tr => ?_⟩
    · intro x hx; simp at hx; subst hx; exact .inl (Nat.le_succ _)
    · simp [Re.slots, h5, slotsOf]
      split <;> simp [Nat.add_mul]

theorem word_parses (M : List (List Nat × Re)) (c : Nat) : ∀ cs, Spec.Parses M .seq ((c :: cs).map fun d => .chars [(d, d)]) (word c cs) := by
  have one : ∀ d, Spec.Parses M .item [.chars [(d, d)]] (.chars [(d, d)]) := fun d => .item _ _ (.set _ _ (.chars _))
  refine snoc_induction (.seq1 _ _ (one c)) ?_
  intro cs d ih
  rw [word_snoc]
  have := Spec.Parses.seq _ _ _ _ ih (one d)
  simpa using this

theorem quoted_reads (E : TokEnv) {f : ReFlags} (hf : f.icase = false) : ∀ v : List Nat,
    Spec.Reads E false f [] true (quoted v ++ [34]) (v.map fun d => .chars [(d, d)]) := by
  have hs : ∀ c, IsSet [(c, c)] (Closed E f.icase (· = c)) := by
    intro c
    refine ⟨⟨by simp, by simp⟩, fun x => ?_⟩
    rw [mem_one]
    simp [Closed, hf]
  intro v
  induction v with
  | nil => exact .quote _ _ _ _ _ _ (.done _ _)
  | cons c v ih =>
    unfold quoted
    split
    · rename_i hc
      refine .atom _ _ _ _ [92, c] _ _ _ _ (.esc _ _ [c] c _ (.self c _ ?_ ?_ ?_)) (hs c) ih
      all_goals rcases hc with rfl | rfl <;> decide
    · rename_i hc
      exact .atom _ _ _ _ [c] _ _ _ _ (.quoted _ c _ (fun h => hc (.inl h)) (fun h => hc (.inr h))) (hs c) ih

theorem quoted_means (E : TokEnv) (M : List (List Nat × Re)) {f : ReFlags} (hf : f.icase = false) (c : Nat) (cs : List Nat) :
    Means E M f (34 :: quoted (c :: cs) ++ [34]) (word c cs) :=
  ⟨_, .quote _ _ _ _ _ _ (quoted_reads E hf (c :: cs)), .alt1 _ _ (word_parses M c cs)⟩

/-! ### Escapes that are too big -/

theorem foldl_hex_mod (ds : List Nat) : ∀ (acc : Nat),
    ds.foldl (fun n d => n * 16 + (if d ≤ 57 then d - 48 else if d ≤ 70 then d - 55 else d - 87)) (acc % 2 ^ 64) % 2 ^ 64 =
      ds.foldl (fun n d => n * 16 + (if d ≤ 57 then d - 48 else if d ≤ 70 then d - 55 else d - 87)) acc % 2 ^ 64 := by
  induction ds with
  | nil => intro acc; simp
  | cons d ds ih =>
    intro acc
    simp only [List.foldl_cons]
    rw [← ih, ← ih (acc * 16 + _)]
    congr 2
    omega

theorem hexLoop_mod {ds rest : List Nat} (hd : ∀ d ∈ ds, IsHexDigit d) (hr : ∀ d ∈ rest.head?, ¬ IsHexDigit d) : ∀ {acc : Nat}, acc < 2 ^ 64 →
    hexLoop acc (ds ++ rest) =
      (ds.foldl (fun n d => n * 16 + (if d ≤ 57 then d - 48 else if d ≤ 70 then d - 55 else d - 87)) acc % 2 ^ 64, rest) := by
  induction ds with
  | nil =>
    intro acc ha
    have := hexLoop_eq (acc := acc) (ds := []) (rest := rest) (by simp) hr (by simpa using ha)
    rw [this]
    simp [Nat.mod_eq_of_lt ha]
  | cons d ds ih =>
    intro acc ha
    have hx := hd d (by simp)
    rw [List.cons_append, hexLoop, if_pos ((isHex_iff d).2 hx), ih (fun e he => hd e (by simp [he])) (Nat.mod_lt _ (by decide)), foldl_hex_mod,
      List.foldl_cons]
    congr 3
    unfold hexValue
    unfold IsHexDigit at hx
    repeat' split
    all_goals omega

theorem hex_small {d : Nat} (h : IsHexDigit d) : hexValue d < 2 ^ 64 := by
  rw [hexValue_eq h]
  unfold IsHexDigit at h
  repeat' split
  all_goals omega

/-- `\x` and the value of its digits, which is taken modulo `2^64`. -/
theorem decodeHex_mod {E : TokEnv} {ds rest : List Nat} (hne : ds ≠ []) (hd : ∀ d ∈ ds, IsHexDigit d)
    (hr : ∀ d ∈ rest.head?, ¬ IsHexDigit d) :
    decodeHex E (ds ++ rest) = if hexVal ds % 2 ^ 64 > E.max then throw_ "Escape is too big for the state machine char type"
      else .ok (hexVal ds % 2 ^ 64, rest) := by
  cases ds with
  | nil => exact absurd rfl hne
  | cons d ds =>
    have hx := hd d (by simp)
    rw [List.cons_append, decodeHex, if_pos ((isHex_iff d).2 hx), hexLoop_mod (fun e he => hd e (by simp [he])) hr (hex_small hx)]
    have : hexVal (d :: ds) =
        ds.foldl (fun n d => n * 16 + (if d ≤ 57 then d - 48 else if d ≤ 70 then d - 55 else d - 87)) (hexValue d) := by
      rw [hexVal, List.foldl_cons, hexValue_eq hx]
      simp
    rw [this]

theorem escapeTok_hex {E : TokEnv} {ds rest : List Nat} (hne : ds ≠ []) (hd : ∀ d ∈ ds, IsHexDigit d)
    (hr : ∀ d ∈ rest.head?, ¬ IsHexDigit d) (hbig : E.max < hexVal ds % 2 ^ 64) (ic : Bool) :
    escapeTok E ic (120 :: ds ++ rest) = throw_ "Escape is too big for the state machine char type" := by
  unfold escapeTok escapeSeq
  rw [List.cons_append, if_neg (by simp)]
  simp only [shortcut, bind, Except.bind]
  repeat rw [if_neg (by decide)]
  simp only [escChar]
  repeat rw [if_neg (by decide)]
  rw [if_pos trivial, decodeHex_mod hne hd hr, if_pos hbig]
  rfl

theorem escapeTok_oct {E : TokEnv} {ds rest : List Nat} (hne : ds ≠ []) (hl : ds.length ≤ 3) (hd : ∀ d ∈ ds, IsOct d)
    (hr : ds.length < 3 → ∀ d ∈ rest.head?, ¬ IsOct d) (hbig : E.max < octVal ds) (ic : Bool) :
    escapeTok E ic (ds ++ rest) = throw_ "Escape is too big for the state machine char type" := by
  cases ds with
  | nil => exact absurd rfl hne
  | cons d ds =>
    have hx := hd d (by simp)
    have e := octalLoop_eq (n := 2) (acc := d - 48) (ds := ds) (rest := rest) (by simp at hl; omega) (fun e he => hd e (by simp [he]))
      (fun h => hr (by simp; omega))
    have hv : octVal (d :: ds) = ds.foldl (fun n d => n * 8 + (d - 48)) (d - 48) := by
      rw [octVal, List.foldl_cons]
      simp
    rw [hv] at hbig
    have hx' := hx
    unfold IsOct at hx'
    unfold escapeTok escapeSeq
    rw [List.cons_append, if_neg (by simp)]
    simp only [shortcut, bind, Except.bind]
    repeat rw [if_neg (by omega)]
    simp only [escChar]
    rw [if_pos ((isOctal_iff d).2 hx), decodeOctal, e]
    simp only
    rw [if_pos hbig]
    rfl

/-- Characters without a meaning of their own, where they are read. -/
def PlainChar (f : ReFlags) (c : Nat) : Prop := c ∉ metaChars ∧ ¬ (f.skipWs = true ∧ IsSpace c)

theorem escape_refused {E : TokEnv} {macros : List (List Nat × List Tok)} {w : List Nat} {e : Fault} {f : ReFlags}
    (he : escapeTok E f.icase w = .error e) : ∀ (pre : List Nat) (n : Nat) (ts : List Tok) (l : Tok) (mac : List Nat) (s : TkState),
    (∀ c ∈ pre, PlainChar f c) → pre.length < n → prec l.type .charset ≠ .err → s.rest = pre ++ 92 :: w → s.flags = f →
    s.inString = false → tokLoop E macros n (ts ++ [l]) mac none s = .error e
  | [], n, ts, l, mac, s, _, hn, _, hr, hf, hs => by
    obtain ⟨n, rfl⟩ : ∃ k, n = k + 1 := ⟨n - 1, by simp at hn; omega⟩
    obtain ⟨len, rest, flags, st, p, q⟩ := s
    dsimp only at hr hf hs
    subst hr hf hs
    have hq : Quiet flags false (92 :: w) := quiet_of (by decide) (fun _ h => by cases h) (fun _ _ => by decide)
    unfold tokLoop
    rw [getLast_snoc]
    simp only [List.nil_append]
    unfold TkState.next
    rw [leads_len hq]
    simp only [bind, Except.bind]
    rw [if_pos trivial, he]
  | c :: pre, n, ts, l, mac, s, hp, hn, hl, hr, hf, hs => by
    obtain ⟨n, rfl⟩ : ∃ k, n = k + 1 := ⟨n - 1, by simp at hn; omega⟩
    obtain ⟨h1, h2⟩ := hp c (by simp)
    simp only [metaChars, List.mem_cons, List.not_mem_nil, or_false, not_or] at h1
    obtain ⟨len, rest, flags, st, p, q⟩ := s
    dsimp only at hr hf hs
    subst hr hf hs
    have hq : Quiet flags false (c :: (pre ++ 92 :: w)) := quiet_of (by omega) (fun _ h => by omega) (fun _ h => ⟨by omega, fun hsp => h2 ⟨h, hsp⟩⟩)
    have hnext : ∀ lhs, TkState.next E lhs ⟨len, c :: (pre ++ 92 :: w), flags, st, p, false⟩ =
        .ok (.tok ⟨.charset, [], addRange E flags.icase (c, c) []⟩, ⟨len, pre ++ 92 :: w, flags, st, p, false⟩) := by
      intro lhs
      unfold TkState.next
      rw [leads_len hq]
      simp only [bind, Except.bind]
      simp only [Bool.false_eq_true, if_false]
      repeat rw [if_neg (by omega)]
    rw [List.cons_append, tokLoop_step (.tok ts l mac ⟨.charset, [], addRange E flags.icase (c, c) []⟩ hl (by simp) (by simp)) (fun lhs _ => hnext lhs)]
    exact escape_refused he pre n (ts ++ [l]) _ _ _ (fun d hd => hp d (by simp [hd])) (by simp at hn; omega) (by simp [prec]) rfl rfl rfl

theorem push_refused {E : TokEnv} {tr : Traits} {o : RulesObj} {pre w : List Nat} {m : String} {id uid : Nat}
    (hp : ∀ c ∈ pre, PlainChar o.flags c) (he : escapeTok E o.flags.icase w = throw_ m) :
    ∃ m', o.pushInitial E tr (pre ++ 92 :: w) id uid = (o, throw_ m') := by
  have := escape_refused (macros := o.macros) he pre ((pre ++ 92 :: w).length + 2) [] beginTok []
    { len := (pre ++ 92 :: w).length, rest := pre ++ 92 :: w, flags := o.flags } hp (by simp; omega) (by decide) rfl rfl rfl
  rw [List.nil_append] at this
  unfold RulesObj.pushInitial
  unfold checkId
  split
  · rename_i e h
    split at h
    · exact ⟨_, by rw [← h]⟩
    · split at h
      · exact ⟨_, by rw [← h]⟩
      · cases h
  · unfold tokenise
    rw [this]
    exact ⟨m, rfl⟩

end Lexertl.Reading
